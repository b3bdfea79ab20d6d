import Verif.Props.CsmaDevice

/-!
# C65: two devices complete an acknowledged transmission
-/

namespace Dot15d4.Props
open Dot15d4 Out Spec Csma

/-- The frame in a buffer, as a radio format presents it. -/
def Carries (F : RadioFormat) (b : Arr 128) (m : Bytes) : Prop :=
  ∃ n, F.frameLen b.1 = some n ∧ F.data b.1 n = m

/-- The frame a device puts into an acknowledgement buffer. -/
def ackFrame (F : RadioFormat) (b : Arr 128) : Bytes := (b.1.drop F.tokenOff).take 3

/-- No reception among these events. -/
def NoGot (l : List RxEvent) : Prop := ∀ b, RxEvent.got b ∉ l

/-! ## What is on the air -/

theorem acceptable_congr {o0 o1 p0 p1 : Byte} {l l' : Bytes} (hl : l.length = l'.length)
    (hf : ∃ a, decodeFc p0 p1 = { decodeFc o0 o1 with ackRequest := a })
    (h : Acceptable (o0 :: o1 :: l)) : Acceptable (p0 :: p1 :: l') := by
  obtain ⟨a, hf⟩ := hf
  obtain ⟨h1, h2, q0, q1, k, e, h3, h4, h5, h6, h7, h8⟩ := h
  cases e
  refine ⟨by simp, by simp at h2 ⊢; omega, p0, p1, l', rfl, ?_, ?_, ?_, ?_, ?_, ?_⟩ <;> rw [hf]
  · intro hs; have := h3 hs; simp at this ⊢; omega
  all_goals assumption

/-- The frame a device transmits when it will wait for the acknowledgement `s`: it can be read, asks
to be acknowledged, has this sequence number, and is not itself an acknowledgement. -/
theorem prepared_frame (S : Device) (hS : S.format.Lawful) {p b : Arr 128} {s : Byte}
    {cs : List TxEvent} (hp : Prepared S p b (some s) cs) :
    ∃ H : Header, H.WellFormed ∧ Acceptable H.bytes ∧ Carries S.format b H.bytes ∧
      H.seq = some s ∧ H.fc.ackRequest = true ∧ H.fc.frameType ≠ .ack ∧
      (NotBroadcast H ∧ S.config.ackUnicast = true ∨ Broadcast H ∧ S.config.ackBroadcast = true) := by
  generalize hq : some s = q at hp
  cases hp with
  | noDeviceFrame => cases hq
  | noIeeeFrame => cases hq
  | frame h n o0 o1 want hf hacc hn hb hw hd hc hbuf =>
    cases want with
    | false => cases hq
    | true =>
      simp only [if_true] at hq
      obtain ⟨hty, hdst⟩ := hw.1 rfl
      have hwf' : ({ h with o0 := o0, o1 := o1 } : Header).WellFormed := by
        obtain ⟨p0, p1, want', hw', -, hd', hc', hwf, -⟩ :=
          C45_ack_bit_partial S p.1 n h hn hb hf hacc
        have : want' = true := hw'.2 ⟨hty, hdst⟩
        subst this
        have e : decodeFc o0 o1 = decodeFc p0 p1 := by rw [hd, hd']
        have e2 : fcPans o0 o1 = fcPans p0 p1 := by simp only [fcPans, e]
        have e3 : ∀ q, fcAddrLen o0 o1 q = fcAddrLen p0 p1 q := by
          intro q; simp only [fcAddrLen, e]
        obtain ⟨w1, w2⟩ := hwf
        refine ⟨?_, ?_⟩
        · simpa only [Header.fc, e] using w1
        · cases ha : h.addressing with
          | none => simp only [ha, e2, e3] at w2 ⊢; exact w2
          | some a => simp only [ha, e2, Header.fc, e] at w2 ⊢; exact w2
      have hacc' : Acceptable ({ h with o0 := o0, o1 := o1 } : Header).bytes := by
        have hacc := hacc
        simp only [Header.bytes, List.append_assoc, List.cons_append, List.nil_append] at hacc ⊢
        exact acceptable_congr rfl ⟨_, hd⟩ hacc
      have hl : ({ h with o0 := o0, o1 := o1 } : Header).bytes.length = n := by
        have e := congrArg List.length hb
        have hin := hS.frame_inside _ _ hn
        rw [RadioFormat.data, List.length_take, List.length_drop] at e
        have : ({ h with o0 := o0, o1 := o1 } : Header).bytes.length = h.bytes.length := by
          simp [Header.bytes]
        omega
      obtain ⟨-, hwf2, hl2⟩ := C50_overwrite S (S.format.putData p.1 n
        ({ h with o0 := o0, o1 := o1 } : Header).bytes) n { h with o0 := o0, o1 := o1 }
        (hS.frame_stable _ _ _ hn hl) (data_putData _ _ _ _ (hS.frame_inside _ _ hn) hl) hwf' hacc'
      refine ⟨({ h with o0 := o0, o1 := o1 } : Header).overwrite S, hwf2, ?_, ?_, ?_, ?_, ?_, ?_⟩
      · have hacc' := hacc'
        have hl3 := hl2
        simp only [Header.bytes, List.append_assoc, List.cons_append, List.nil_append,
          Header.overwrite] at hacc' hl3 ⊢
        refine acceptable_congr ?_ ⟨_, rfl⟩ hacc'
        simp only [List.length_cons] at hl3
        omega
      · refine ⟨n, ?_, ?_⟩
        · rw [hbuf]; exact hS.frame_stable _ _ _ hn (hl2.trans hl)
        · rw [hbuf]; exact data_putData _ _ _ _ (hS.frame_inside _ _ hn) (hl2.trans hl)
      · show h.seq = _
        simp only [if_true]
      · show (decodeFc o0 o1).ackRequest = true
        rw [hd]; simp
      · show (decodeFc o0 o1).frameType ≠ .ack
        rw [hd]
        rcases hty with e | e
        · show h.fc.frameType ≠ .ack
          rw [e]; decide
        · show h.fc.frameType ≠ .ack
          rw [e]; decide
      · rcases hdst with ⟨⟨a, ha, hne⟩, h1⟩ | ⟨⟨a, ha, he⟩, h1⟩
        · exact .inl ⟨⟨_, congrArg (Option.map _) ha, hne⟩, h1⟩
        · exact .inr ⟨⟨_, congrArg (Option.map _) ha, he⟩, h1⟩

/-- The immediate acknowledgement of `s`, wherever it is heard, is a valid acknowledgement of `s`. -/
theorem immAck_valid (F : RadioFormat) (s : Byte) (b : Arr 128) (h : Carries F b (immAck s)) :
    ValidAck F s b := by
  obtain ⟨n, hn, hb⟩ := h
  refine ⟨{ o0 := 2, o1 := 0x10, seq := some s, addressing := none, rest := [] }, ⟨⟨?_, ?_⟩, ?_, n, hn, hb⟩,
    (by decide : (decodeFc 2 0x10).frameType = .ack), rfl⟩
  · show true = !(decodeFc 2 0x10).seqNoSuppression
    decide
  · intro p hp
    have : fcPans 2 0x10 = none := by decide
    rw [this] at hp; cases hp
  · exact ⟨by simp [Header.bytes], by simp [Header.bytes, addressingBytes], 2, 0x10, [s], rfl, by simp [Header.bytes],
      by decide, by decide, by decide, by decide, by decide⟩

/-! ## The receiver's history -/

theorem receivedOne_head {D : Device} {r : List RxEvent} (h : ReceivedOne D r) :
    ∃ b t, r = .got b :: t ∧ NoGot t := by
  cases h with
  | dropped b _ => exact ⟨b, [], rfl, by intro _ h; cases h⟩
  | delivered b h _ _ _ => exact ⟨b, _, rfl, by intro _ h; simp at h⟩
  | acknowledged b h s a l _ _ _ _ _ hi =>
    refine ⟨b, l, rfl, fun c hc => ?_⟩
    have := interleave_forall (S := fun e => ∀ c, e ≠ RxEvent.got c) hi (by simp) (by simp) _ hc
    exact this c rfl

theorem noGot_append {l l' : List RxEvent} : NoGot (l ++ l') ↔ NoGot l ∧ NoGot l' := by
  simp only [NoGot, List.mem_append, not_or]
  exact ⟨fun h => ⟨fun b => (h b).1, fun b => (h b).2⟩, fun h b => ⟨h.1 b, h.2 b⟩⟩

theorem round_between {rounds : List (List RxEvent)} {last : List RxEvent}
    (hr : ∀ r ∈ rounds, ∃ b t, r = RxEvent.got b :: t ∧ NoGot t)
    (hl : last = [] ∨ ∃ b t, last = RxEvent.got b :: t ∧ NoGot t) {l1 l2 l3 : List RxEvent}
    {b b' : Arr 128} (e : rounds.flatten ++ last = l1 ++ .got b :: (l2 ++ .got b' :: l3))
    (h2 : NoGot l2) : (.got b :: l2) ∈ rounds := by
  induction rounds generalizing l1 with
  | nil =>
    exfalso
    simp only [List.flatten_nil, List.nil_append] at e
    rcases hl with rfl | ⟨c, t, rfl, ht⟩
    · simp at e
    · cases l1 with
      | nil =>
        simp only [List.nil_append, List.cons.injEq] at e
        exact ht b' (by rw [e.2]; simp)
      | cons x l1 =>
        simp only [List.cons_append, List.cons.injEq] at e
        exact ht b (by rw [e.2]; simp)
  | cons r rs ih =>
    obtain ⟨c, t, rfl, ht⟩ := hr r (by simp)
    have hX : rs.flatten ++ last = [] ∨ ∃ d u, rs.flatten ++ last = RxEvent.got d :: u := by
      cases rs with
      | nil =>
        rcases hl with rfl | ⟨d, u, rfl, -⟩
        · exact .inl rfl
        · exact .inr ⟨d, u, rfl⟩
      | cons r' rs' =>
        obtain ⟨d, u, rfl, -⟩ := hr r' (by simp)
        exact .inr ⟨d, _, rfl⟩
    have ih' := fun {l1} => ih (l1 := l1) (fun r h => hr r (by simp [h]))
    simp only [List.flatten_cons, List.cons_append, List.append_assoc] at e
    cases l1 with
    | nil =>
      simp only [List.nil_append, List.cons.injEq, RxEvent.got.injEq] at e
      obtain ⟨rfl, e⟩ := e
      rcases List.append_eq_append_iff.1 e with ⟨a, rfl, e2⟩ | ⟨a, rfl, e2⟩
      · cases a with
        | nil => simp
        | cons x a =>
          rcases hX with h | ⟨d, u, h⟩
          · rw [h] at e2; cases e2
          · rw [h] at e2
            simp only [List.cons_append, List.cons.injEq] at e2
            exact absurd (by simp [← e2.1]) (h2 d)
      · cases a with
        | nil => simp
        | cons x a =>
          simp only [List.cons_append, List.cons.injEq] at e2
          exact absurd (by simp [← e2.1]) (ht b')
    | cons x l1 =>
      simp only [List.cons_append, List.cons.injEq] at e
      refine List.mem_cons_of_mem _ ?_
      rcases List.append_eq_append_iff.1 e.2 with ⟨a, rfl, e2⟩ | ⟨a, rfl, e2⟩
      · exact ih' e2
      · cases a with
        | nil => exact ih' (l1 := []) (by simpa using e2.symm)
        | cons x a =>
          simp only [List.cons_append, List.cons.injEq] at e2
          exact absurd (by simp [← e2.1]) (ht b)

/-! ## The exchange -/

/-- **C65**.  A device `S` transmits `b` and waits for the acknowledgement of `s`.  If the radio of a
device `R` receives a buffer `rb` with that frame, and the frame is for `R` (or `R` passes on
everything), and `R` acknowledges the kinds of frames `S` wants acknowledged, then, in every execution
of `R`: before it receives anything else, `R` transmits one buffer `a` and delivers `rb` once; and in
every execution of the transmission by `S`: if `S` hears the frame in `a` while it is waiting, the
transmission ends as acknowledged, and no failure is reported. -/
theorem C65_exchange (S R : Device) (hS : Sane S) (hR : Sane R)
    {p b : Arr 128} {s : Byte} {cs : List TxEvent} (hp : Prepared S p b (some s) cs)
    {m : Bytes} (hm : Carries S.format b m) {rb : Arr 128} (hrb : Carries R.format rb m)
    {h0 : Header} (hw0 : h0.WellFormed) (hm0 : h0.bytes = m)
    (hfor : ForUs R.consts.panId R.consts.implicitBroadcast R.hardwareAddress h0 ∨
      R.config.ignoreNotForUs = false)
    (huni : S.config.ackUnicast = true → R.config.ackUnicast = true)
    (hbro : S.config.ackBroadcast = true → R.config.ackBroadcast = true)
    {t : List (Ev CallAns)} {o : Fin Empty} (he : Exec (runDevice R) t o)
    {l1 l2 l3 : List RxEvent} {rb' : Arr 128}
    (ht : t.filterMap rxEvent = l1 ++ .got rb :: (l2 ++ .got rb' :: l3)) (h2 : NoGot l2) :
    ∃ a : Arr 128,
      Interleave [.pause (BitVec.ofInt 32 (R.consts.aifs.us.toInt.tdiv 2)),
        .send a ⟨R.config.channel, false⟩] [.deliver ⟨rb, true⟩] l2 ∧
      ∀ (l : List TxEvent) (out : TxOutcome) (sb : Arr 128), SendLog S b (some s) 1 l out →
        (true, sb) ∈ heards l → Carries S.format sb (ackFrame R.format a) →
        out = .acked ∧ (reports l).filter terminal = [] := by
  obtain ⟨H, hw, hacc, ⟨n, hn, hb⟩, hseq, hreq, hty, hdst⟩ := prepared_frame S hS.format hp
  obtain ⟨n', hn', hb'⟩ := hm
  rw [hn] at hn'; cases hn'
  have hmH : H.bytes = m := by rw [← hb, hb']
  obtain ⟨k, hk, hkb⟩ := hrb
  have holds : Holds R.format rb.1 H := ⟨hw, hacc, k, hk, by rw [hkb, hmH]⟩
  have hpass : PassedOn R H := by
    have e0 : h0.bytes = H.bytes := hm0.trans hmH.symm
    have holds0 : Holds R.format rb.1 h0 := ⟨hw0, e0 ▸ hacc, k, hk, by rw [hkb, hm0]⟩
    have e1 : h0.fc = H.fc := by
      have e2 := e0
      simp only [Header.bytes, List.append_assoc, List.cons_append, List.nil_append,
        List.cons.injEq] at e2
      show decodeFc _ _ = decodeFc _ _
      rw [e2.1, e2.2.1]
    obtain ⟨v, -, h3⟩ := (examine_header R rb.1 h0 holds0).1 ⟨hfor, by rw [e1]; exact hty⟩
    by_contra hno
    rw [(examine_header R rb.1 H holds).2 hno] at h3
    cases h3
  have hacks : AcksFrame R.config H := by
    right
    refine ⟨hreq, ?_⟩
    rcases hdst with ⟨h, e⟩ | ⟨h, e⟩
    · exact .inr ⟨h, huni e⟩
    · exact .inl ⟨h, hbro e⟩
  obtain ⟨v, hv, hex⟩ := (examine_header R rb.1 H holds).1 hpass
  have key : ∀ h, Holds R.format rb.1 h → PassedOn R h → AcksFrame R.config h ∧ h.seq = some s := by
    intro h hh hps
    obtain ⟨v', hv', hex'⟩ := (examine_header R rb.1 h hh).1 hps
    rw [hex] at hex'
    simp only [ok.injEq, Option.some.injEq, Prod.mk.injEq] at hex'
    obtain ⟨rfl, e⟩ := hex'
    exact ⟨hv'.1 (hv.2 hacks), by rw [← e, hseq]⟩
  have hround : ReceivedOne R (.got rb :: l2) := by
    obtain ⟨rounds, last, e, hr, hl⟩ := C44_device R hR he
    refine hr _ (round_between (fun r h => receivedOne_head (hr r h)) ?_ (e.symm.trans ht) h2)
    rcases hl with rfl | ⟨rest, hl⟩
    · exact .inl rfl
    · cases last with
      | nil => exact .inl rfl
      | cons x last =>
        obtain ⟨c, u, e1, hu⟩ := receivedOne_head hl
        simp only [List.cons_append, List.cons.injEq] at e1
        refine .inr ⟨c, last, by rw [e1.1], ?_⟩
        rw [← e1.2] at hu
        exact (noGot_append.1 hu).1
  generalize hrr : RxEvent.got rb :: l2 = r at hround
  cases hround with
  | dropped b' hno =>
    cases hrr
    exact absurd hpass (hno H holds)
  | delivered b' h hh hps hna =>
    cases hrr
    obtain ⟨h1, h2⟩ := key h hh hps
    exact absurd ⟨h1, by rw [h2]; rfl⟩ hna
  | acknowledged b' h s' a l' hh hps ha hs' hca hi =>
    cases hrr
    obtain ⟨-, h2⟩ := key h hh hps
    rw [hs'] at h2; cases h2
    refine ⟨a, hi, fun l out sb hsend hheard hcar => ?_⟩
    have hval : ValidAck S.format s sb := immAck_valid S.format s sb (by
      have : ackFrame R.format a = immAck s := hca
      rw [← this]; exact hcar)
    obtain ⟨n, -, -, -, -, -, i6, -, -, i9⟩ := SendLog.facts hsend
    have hout : out = .acked := by
      cases out with
      | acked => rfl
      | sent => cases i9
      | ccaFailed => exact absurd ⟨rfl, hval⟩ (i9 s rfl _ hheard)
      | ackFailed =>
        obtain ⟨-, s', e, hno⟩ := i9
        cases e
        exact absurd ⟨rfl, hval⟩ (hno _ hheard)
    refine ⟨hout, ?_⟩
    rw [i6, hout]; rfl

/-- A transmission in the history of a receive task is in one of its rounds. -/
theorem send_in_round {rounds : List (List RxEvent)}
    (hr : ∀ r ∈ rounds, ∃ b t, r = RxEvent.got b :: t ∧ NoGot t) {l1 l3 : List RxEvent}
    {x : RxEvent} (hx : ∀ b, x ≠ .got b) (e : rounds.flatten = l1 ++ x :: l3) :
    ∃ l0 b l2 r, l1 = l0 ++ .got b :: l2 ∧ NoGot l2 ∧ (.got b :: (l2 ++ x :: r)) ∈ rounds := by
  induction rounds generalizing l1 with
  | nil => simp at e
  | cons r rs ih =>
    obtain ⟨b, t, rfl, ht⟩ := hr r (by simp)
    simp only [List.flatten_cons, List.cons_append] at e
    cases l1 with
    | nil =>
      simp only [List.nil_append, List.cons.injEq] at e
      exact absurd e.1.symm (hx b)
    | cons y l1 =>
      simp only [List.cons_append, List.cons.injEq] at e
      obtain ⟨rfl, e⟩ := e
      have later : ∀ {l1'}, rs.flatten = l1' ++ x :: l3 → l1 = t ++ l1' →
          ∃ l0 b' l2 r, RxEvent.got b :: l1 = l0 ++ .got b' :: l2 ∧ NoGot l2 ∧
            (.got b' :: (l2 ++ x :: r)) ∈ (RxEvent.got b :: t) :: rs := by
        intro l1' e' e1
        obtain ⟨l0, b', l2, r, h1, h2, h3⟩ := ih (fun r h => hr r (by simp [h])) e'
        exact ⟨.got b :: t ++ l0, b', l2, r, by rw [e1, h1]; simp, h2, by simp [h3]⟩
      rcases List.append_eq_append_iff.1 e with ⟨a, e1, e2⟩ | ⟨a, e1, e2⟩
      · exact later e2 e1
      · cases a with
        | nil => exact later (l1' := []) (by simpa using e2.symm) (by simpa using e1.symm)
        | cons y a =>
          simp only [List.cons_append, List.cons.injEq] at e2
          obtain ⟨rfl, -⟩ := e2
          subst e1
          exact ⟨[], b, l1, a, rfl, (noGot_append.1 ht).1, by simp⟩

/-- **C65**, the converse: a receive task never acknowledges what it did not receive.  Whenever it
transmits, in any execution, the last buffer received before holds a frame it passes on and is to
acknowledge, with a sequence number, and the transmission is the acknowledgement of this number; it is
the only one for this buffer. -/
theorem C65_ack_means_received (R : Device) (hR : Sane R) {t : List (Ev CallAns)} {o : Fin Empty}
    (he : Exec (runDevice R) t o) {l1 l3 : List RxEvent} {a : Arr 128} {cfg : TxConfig}
    (ht : t.filterMap rxEvent = l1 ++ .send a cfg :: l3) :
    ∃ (l0 l2 : List RxEvent) (rb : Arr 128) (h : Header) (s : Byte),
      l1 = l0 ++ .got rb :: l2 ∧ NoGot l2 ∧ (∀ a' cfg', .send a' cfg' ∉ l2) ∧
      Holds R.format rb.1 h ∧ PassedOn R h ∧ AcksFrame R.config h ∧ h.seq = some s ∧
      ackFrame R.format a = immAck s := by
  obtain ⟨rounds, last, e, hr, hl⟩ := C44_device R hR he
  obtain ⟨rounds', rest, e', hr'⟩ : ∃ (rounds' : List (List RxEvent)) (rest : List RxEvent),
      rounds'.flatten = rounds.flatten ++ last ++ rest ∧ ∀ r ∈ rounds', ReceivedOne R r := by
    rcases hl with rfl | ⟨rest, hl⟩
    · exact ⟨rounds, [], by simp, hr⟩
    · refine ⟨rounds ++ [last ++ rest], rest, by simp, fun r h => ?_⟩
      rcases List.mem_append.1 h with h | h
      · exact hr r h
      · rw [List.mem_singleton.1 h]; exact hl
  rw [← e, ht, List.append_assoc, List.cons_append] at e'
  obtain ⟨l0, b, l2, r, h1, h2, h3⟩ :=
    send_in_round (fun r h => receivedOne_head (hr' r h)) (by simp) e'
  have hround := hr' _ h3
  generalize hrr : RxEvent.got b :: (l2 ++ .send a cfg :: r) = q at hround
  cases hround with
  | dropped b' hno => simp at hrr
  | delivered b' h hh hps hna =>
    simp only [List.cons.injEq] at hrr
    cases l2 with
    | nil => simp at hrr
    | cons x l2 => simp at hrr
  | acknowledged b' h s' a' l' hh hps ha hs' hca hi =>
    simp only [List.cons.injEq, RxEvent.got.injEq] at hrr
    obtain ⟨rfl, rfl⟩ := hrr
    have key : a' = a ∧ ∀ a' cfg', RxEvent.send a' cfg' ∉ l2 := by
      have ex := interleave_21 hi
      rcases l2 with _ | ⟨x, _ | ⟨y, _ | ⟨z, l2⟩⟩⟩
      · simp at ex
      · simp at ex
        rcases ex with ⟨rfl, -⟩ | ⟨rfl, ⟨rfl, -⟩, -⟩ <;> simp_all
      · simp at ex
        rcases ex with ex | ex <;> simp [ex]
      · simp at ex
    exact ⟨l0, l2, b, h, s', h1, h2, key.2, hh, hps, ha, hs', by rw [← key.1]; exact hca⟩

/-! ## An exchange -/

/-- The frame exchanged. -/
def exchanged : Header := { toShort ⟨[7, 8], rfl⟩ 0xffff with o0 := 0x61 }

theorem exchanged_wellFormed : exchanged.WellFormed := by
  refine ⟨by decide, ?_⟩
  show _ = _ ∧ _ ∧ _
  decide

set_option maxRecDepth 20000 in
/-- The example device prepares it from `examplePackage`. -/
theorem examplePackage_prepared :
    Prepared exampleDevice examplePackage.buffer askingFrame (some 9) [] := by
  refine Prepared.frame (toShort ⟨[7, 8], rfl⟩ 0xffff) 12 0x61 0x98 true ?_ ?_ ?_ ?_ ?_ ?_ ?_ ?_
  · refine ⟨by decide, ?_⟩
    show _ = _ ∧ _ ∧ _
    decide
  · exact ⟨by decide, by decide, 0x41, 0x98, _, rfl, by decide, by decide, by decide, by decide,
      by decide, by decide⟩
  · rfl
  · rfl
  · exact ⟨fun _ => ⟨by decide, Or.inl ⟨⟨_, rfl, by decide⟩, rfl⟩⟩, fun _ => rfl⟩
  · decide
  · decide
  · rfl

/-- A radio that receives several buffers, one after the other. -/
def hearing : Prog.World CallAns (List (Arr 128) × Script) where
  start e w := match e with
    | (.rx, .radioReceive _) => match w.1 with
      | b :: l => (some (true, b), (l, w.2))
      | [] => (none, w)
    | e => ((scripted.start e w.2).1, (w.1, (scripted.start e w.2).2))
  poll _ w := (none, w)

set_option maxRecDepth 40000 in
/-- Non-vacuity for C65: a device with the address 7, 8 hears `askingFrame` and then something else
(`R` and `S` have the same settings); `S` hears its acknowledgement. -/
example : ∃ t, Exec (runDevice exampleDevice) t .pending ∧
    t.filterMap rxEvent = [] ++ .got askingFrame :: ([.pause 500,
      .send (padded [3, 2, 0x10, 9]) ⟨.c26, false⟩, .deliver ⟨askingFrame, true⟩] ++
        .got (padded [200]) :: []) ∧
    Carries exampleDevice.format askingFrame exchanged.bytes ∧
    ForUs exampleDevice.consts.panId exampleDevice.consts.implicitBroadcast
      exampleDevice.hardwareAddress exchanged ∧
    ∃ l, SendLog exampleDevice askingFrame (some 9) 1 l .acked ∧
      (true, padded [3, 2, 0x10, 9]) ∈ heards l ∧
      Carries exampleDevice.format (padded [3, 2, 0x10, 9])
        (ackFrame exampleDevice.format (padded [3, 2, 0x10, 9])) := by
  obtain ⟨t, h1, h2⟩ := poll_outcome hearing 9 (runDevice exampleDevice)
    ([askingFrame, padded [200]], ⟨none, none, none, true⟩) []
  refine ⟨t, outcome_pending h2, ?_, ⟨12, rfl, rfl⟩, ?_, ?_⟩
  · rw [List.nil_append] at h1
    rw [← h1]
    rfl
  · exact ⟨Or.inr rfl, Or.inr (Or.inl rfl)⟩
  · have hc : Carries exampleDevice.format (padded [3, 2, 0x10, 9]) (immAck 9) := ⟨3, rfl, rfl⟩
    have hv := immAck_valid exampleDevice.format 9 _ hc
    refine ⟨_, SendLog.acked rfl (CcaLog.sent (by decide)) (AckLog.acked (Listening.acked hv)
      (.inl rfl) (.left (.left .nil))), by simp [heards, taking], hc⟩

end Dot15d4.Props
