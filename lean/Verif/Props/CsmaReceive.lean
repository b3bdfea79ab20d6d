import Verif.Props.CsmaFrames
import Verif.Lemmas.Poll

/-!
# C44: what the receive task does with received frames
-/

namespace Dot15d4.Props
open Dot15d4 Out Spec Csma
open Dot15d4.Sync (Either)

/-! ## The decision -/

theorem examine_header (D : Device) (buffer : Bytes) (h : Header) (hh : Holds D.format buffer h) :
    (PassedOn D h → ∃ a, (a = true ↔ AcksFrame D.config h) ∧
      examineReceived D buffer = .ok (some (a, h.seq))) ∧
    (¬ PassedOn D h → examineReceived D buffer = .ok none) := by
  obtain ⟨hf, hacc, n, hn, hb⟩ := hh
  obtain ⟨r, hr, hfor⟩ := C43_filter_partial D.consts D.hardwareAddress h hf hacc
  have pre : examineReceived D buffer = examineReceived D buffer := rfl
  conv at pre =>
    rhs
    simp only [examineReceived, hn, hb, new_header hacc, toOption, bind_ok, hr, header_fc,
      fc_frameType, header_dst hf hacc, fc_ack, header_seq hf]
  rw [pre]
  by_cases hp1 : r = true ∨ D.config.ignoreNotForUs = false
  · have c1 : ¬ ((!r && D.config.ignoreNotForUs) = true) := by
      rcases hp1 with h | h <;> simp [h]
    rw [if_neg c1]
    by_cases hty : (decodeFc h.o0 h.o1).frameType = .ack
    · rw [if_pos hty]
      exact ⟨fun hp => absurd hty hp.2, fun _ => rfl⟩
    · rw [if_neg hty]
      have hpass : PassedOn D h := ⟨by rw [← hfor]; exact hp1, hty⟩
      refine ⟨fun _ => ⟨_, ?_, rfl⟩, fun hn => absurd hpass hn⟩
      simp only [AcksFrame, Header.fc]
      cases he : D.config.ackEverything with
      | true => simp
      | false =>
        cases har : (decodeFc h.o0 h.o1).ackRequest with
        | false => simp
        | true =>
          cases ha : h.addressing with
          | none => simp [Broadcast, NotBroadcast, ha]
          | some a =>
            by_cases hbc : a.dst.isBroadcast = true
            · have hbc' := (isBroadcast_iff _).1 hbc
              simp only [Bool.false_eq_true, if_false, Bool.not_true, Option.map_some, hbc,
                false_or, true_and, if_true]
              refine ⟨fun hon => Or.inl ⟨⟨a, ha, hbc'⟩, hon⟩, fun hw => ?_⟩
              rcases hw with hw | ⟨⟨a', ha', hb'⟩, _⟩
              · exact hw.2
              · rw [ha] at ha'
                cases ha'
                exact absurd hbc' hb'
            · have hbc' : a.dst ≠ .short ⟨[0xff, 0xff], rfl⟩ :=
                fun e => hbc ((isBroadcast_iff _).2 e)
              simp only [Bool.false_eq_true, if_false, Bool.not_true, Option.map_some, hbc,
                false_or, true_and]
              refine ⟨fun hon => Or.inr ⟨⟨a, ha, hbc'⟩, hon⟩, fun hw => ?_⟩
              rcases hw with ⟨⟨a', ha', hb'⟩, _⟩ | hw
              · rw [ha] at ha'
                cases ha'
                exact absurd hb' hbc'
              · exact hw.2
  · have c1 : (!r && D.config.ignoreNotForUs) = true := by
      simp only [not_or, Bool.not_eq_true] at hp1
      simp [hp1.1, hp1.2]
    rw [if_pos c1]
    refine ⟨fun hp => absurd ?_ hp1, fun _ => rfl⟩
    rw [hfor]
    exact hp.1

/-- **C44**, the decision.  For every received buffer and configuration: a frame that is passed on
is acknowledged iff everything is to be acknowledged, or it asks for it and the option for its kind
of destination is on; a buffer without a frame to pass on is dropped. -/
theorem C44_decision (D : Device) (buffer : Bytes) :
    (∃ h a, Holds D.format buffer h ∧ PassedOn D h ∧ (a = true ↔ AcksFrame D.config h) ∧
      examineReceived D buffer = .ok (some (a, h.seq))) ∨
    ((∀ h, Holds D.format buffer h → ¬ PassedOn D h) ∧ examineReceived D buffer = .ok none) := by
  by_cases hex : ∃ h, Holds D.format buffer h
  · obtain ⟨h, hh⟩ := hex
    by_cases hp : PassedOn D h
    · obtain ⟨a, h1, h2⟩ := (examine_header D buffer h hh).1 hp
      exact Or.inl ⟨h, a, hh, hp, h1, h2⟩
    · have he := (examine_header D buffer h hh).2 hp
      refine Or.inr ⟨fun h' hh' hp' => ?_, he⟩
      obtain ⟨a, -, h2⟩ := (examine_header D buffer h' hh').1 hp'
      rw [he] at h2
      cases h2
  · refine Or.inr ⟨fun h hh => absurd ⟨h, hh⟩ hex, ?_⟩
    cases hn : D.format.frameLen buffer with
    | none => simp [examineReceived, hn]
    | some n =>
      have : ¬ Acceptable (D.format.data buffer n) := by
        intro hacc
        obtain ⟨H, hb, hw⟩ := exists_header hacc
        exact hex ⟨H, hw, by rw [← hb]; exact hacc, n, hn, hb⟩
      simp [examineReceived, hn, new_not this]

/-- The first case: a frame for the device that asks for an acknowledgement. The second: a buffer
without a frame. -/
example : examineReceived exampleDevice ([12] ++ ({ toShort ⟨[7, 8], rfl⟩ 0xffff with o0 := 0x61 } : Header).bytes) =
      .ok (some (true, some 9)) ∧ examineReceived exampleDevice [200] = .ok none := by
  decide

/-! ## The acknowledgement -/

theorem ack_fc (b0 b1 s : Byte) (h : b0 = 0 ∧ b1 = 0 ∨ b0 = 2 ∧ b1 = 0x10) :
    DataFrame.setFrameControl [b0, b1, s] (FrameBuilder.fc0 .ack .v2006 false) =
      .ok [2, 0x10, s] := by
  have key : DataFrame.setFrameControl [b0, b1] (FrameBuilder.fc0 .ack .v2006 false) =
      .ok [2, 0x10] := by
    rcases h with ⟨rfl, rfl⟩ | ⟨rfl, rfl⟩ <;> decide
  simp only [DataFrame.setFrameControl, modifyTo] at key ⊢
  rw [sliceTo_ok (by simp)] at key ⊢
  simp only [bind_ok, List.take_succ_cons, List.take_zero, List.drop_succ_cons, List.drop_zero]
    at key ⊢
  revert key
  generalize FrameControlRepr.emit _ _ = x
  cases x with
  | ok a => intro h; simp at h; subst h; simp
  | err => simp
  | panic => simp

theorem emit_immAck (seq b0 b1 s : Byte) (h : b0 = 0 ∧ b1 = 0 ∨ b0 = 2 ∧ b1 = 0x10) :
    (FrameBuilder.newImmAck seq).finalize.unwrap = .ok (FrameBuilder.newImmAck seq) ∧
    (FrameBuilder.newImmAck seq).bufferLen = .ok 3 ∧
    (FrameBuilder.newImmAck seq).emit [b0, b1, s] = .ok [2, 0x10, seq] := by
  refine ⟨rfl, rfl, ?_⟩
  rw [FrameRepr.emit, FrameBuilder.newImmAck, ack_fc _ _ _ h, bind_ok]
  have key : FrameControl.setSeqNoSuppression [2, 0x10] false = .ok [2, 0x10] := by decide
  have key2 : modifyTo [2, 0x10, s] 2 (fun s => FrameControl.setSeqNoSuppression s false) =
      .ok [2, 0x10, s] := by
    rw [modifyTo, sliceTo_ok (by simp)]
    simp only [bind_ok, List.take_succ_cons, List.take_zero, key]
    rfl
  simp only [FrameRepr.ifSome, DataFrame.setSequenceNumber, key2, bind_ok]
  rfl

/-- The ack buffer as `receive_frame_task` finds it: fresh, or with an earlier acknowledgement in
it. -/
def AckBuffer (F : RadioFormat) (b : Arr 128) : Prop :=
  (b.1.drop F.tokenOff).take 3 = [0, 0, 0] ∨ ∃ s, CarriesAck F s b

/-- **C44**, the acknowledgement: whatever was acknowledged before, the acknowledgement written
into the reused ack buffer is the 3-octet immediate acknowledgement with this sequence number. -/
theorem C44_ack_bytes (F : RadioFormat) (hF : F.Lawful) (seq : Byte) (b : Arr 128)
    (hb : AckBuffer F b) :
    ∃ b' : Arr 128, writeAck F seq b.1 = .ok b'.1 ∧ CarriesAck F seq b' := by
  obtain ⟨b0, b1, s, hslot, hor⟩ : ∃ b0 b1 s, (b.1.drop F.tokenOff).take 3 = [b0, b1, s] ∧
      (b0 = 0 ∧ b1 = 0 ∨ b0 = 2 ∧ b1 = 0x10) := by
    rcases hb with h | ⟨s, h⟩
    · exact ⟨0, 0, 0, h, Or.inl ⟨rfl, rfl⟩⟩
    · exact ⟨2, 0x10, s, h, Or.inr ⟨rfl, rfl⟩⟩
  obtain ⟨e1, e2, e3⟩ := emit_immAck seq b0 b1 s hor
  have hlen : (F.header 3 b.1).length = 128 := by rw [hF.header_length, b.2]
  have hfit := hF.ack_fits
  have hslot' : ((F.header 3 b.1).drop F.tokenOff).take 3 = [b0, b1, s] := by
    rw [hF.header_outside, hslot]
  have hsplit : F.header 3 b.1 = (F.header 3 b.1).take F.tokenOff ++ [b0, b1, s] ++
      (F.header 3 b.1).drop (F.tokenOff + 3) := by
    rw [← hslot', ← List.drop_drop, List.append_assoc, List.take_append_drop,
      List.take_append_drop]
  have hpre : ((F.header 3 b.1).take F.tokenOff).length = F.tokenOff := by
    rw [List.length_take, hlen]; omega
  have hw : writeAck F seq b.1 = .ok ((F.header 3 b.1).take F.tokenOff ++ [2, 0x10, seq] ++
      (F.header 3 b.1).drop (F.tokenOff + 3)) := by
    simp only [writeAck, e1, bind_ok, e2, RadioFormat.consume]
    have := modifyAt_append ((F.header 3 b.1).take F.tokenOff) [b0, b1, s] [2, 0x10, seq]
      ((F.header 3 b.1).drop (F.tokenOff + 3))
      (fun b => FrameRepr.emit (FrameBuilder.newImmAck seq) b) e3
    rw [← hsplit, hpre] at this
    exact this
  refine ⟨⟨_, ?_⟩, hw, ?_⟩
  · rw [List.length_append, List.length_append, hpre, List.length_drop, hlen]
    simp; omega
  · simp only [CarriesAck]
    rw [List.append_assoc, List.drop_append, List.drop_of_length_le (by rw [hpre]), hpre]
    simp [immAck]

example : ∃ b' : Arr 128, writeAck exampleDevice.format 9 (List.replicate 128 0) = .ok b'.1 ∧
    CarriesAck exampleDevice.format 9 b' :=
  C44_ack_bytes _ lengthFormat_lawful 9 ⟨List.replicate 128 0, rfl⟩ (.inl rfl)

theorem ackDelay_ok (c : Consts) :
    ackDelay c = .ok (BitVec.ofInt 32 (c.aifs.us.toInt.tdiv 2)) := by
  have h2 : (2 : BitVec 64) ≠ 0 := by decide
  have h3 : ¬ (c.aifs.asUs = BitVec.intMin 64 ∧ (2 : BitVec 64) = BitVec.allOnes 64) := by
    intro h; exact absurd h.2 (by decide)
  rw [ackDelay, Duration.div, if_neg h2, if_neg h3, bind_ok]
  simp only [asU32, Duration.fromUs, Duration.asUs]
  congr 1
  have e : (c.aifs.us.sdiv 2).toInt = c.aifs.us.toInt.tdiv 2 := by
    rw [BitVec.toInt_sdiv_of_ne_or_ne]
    · rfl
    · right; decide
  rw [← e]
  apply BitVec.eq_of_toNat_eq
  rw [BitVec.toNat_setWidth, BitVec.toNat_ofInt, BitVec.toInt_eq_toNat_cond]
  split
  · omega
  · omega

/-! ## The task -/

/-- All received buffers have been dealt with. -/
def Complete (D : Device) (l : List RxEvent) : Prop :=
  ∃ rounds : List (List RxEvent), l = rounds.flatten ∧ ∀ r ∈ rounds, ReceivedOne D r

theorem Complete.snoc {D : Device} {l r : List RxEvent} (h : Complete D l)
    (hr : ReceivedOne D r) : Complete D (l ++ r) := by
  obtain ⟨rounds, rfl, hall⟩ := h
  refine ⟨rounds ++ [r], by simp, fun x hx => ?_⟩
  rcases List.mem_append.1 hx with hx | hx
  · exact hall x hx
  · simp only [List.mem_singleton] at hx; subst hx; exact hr

theorem Complete.log {D : Device} {l : List RxEvent} (h : Complete D l) : ReceiveLog D l := by
  obtain ⟨rounds, rfl, hall⟩ := h
  exact ⟨rounds, [], by simp, hall, Or.inl rfl⟩

theorem Complete.within {D : Device} {l r rest : List RxEvent} (h : Complete D l)
    (hr : ReceivedOne D (r ++ rest)) : ReceiveLog D (l ++ r) := by
  obtain ⟨rounds, rfl, hall⟩ := h
  exact ⟨rounds, r, rfl, hall, Or.inr ⟨rest, hr⟩⟩

theorem rx_neutral {o : Op} (hs : rxEvent (.start (.rx, o)) = none)
    (hr : ∀ r, rxEvent (.ret (.rx, o) r) = none) : Neutral rxEvent (rx o) := .await hs hr

theorem asBuffer_ok (b : Arr 128) : asBuffer b.1 = .ok b := by
  simp [asBuffer, b.2]

/-- The branch that acknowledges. -/
theorem acknowledge_traces (D : Device) (hF : D.format.Lawful) (seq : Byte) (b : Arr 128)
    (hb : AckBuffer D.format b) : ∃ a, CarriesAck D.format seq a ∧
    Traces rxEvent (acknowledge D true (some seq) b) fun u o =>
      u <+: [.pause (BitVec.ofInt 32 (D.consts.aifs.us.toInt.tdiv 2)),
        .send a ⟨D.config.channel, false⟩] ∧
      ∀ s, o = some s → AckBuffer D.format s.txAck ∧ s.held = true ∧
        u = [.pause (BitVec.ofInt 32 (D.consts.aifs.us.toInt.tdiv 2)),
          .send a ⟨D.config.channel, false⟩] := by
  obtain ⟨a, hw, ha⟩ := C44_ack_bytes D.format hF seq b hb
  refine ⟨a, ha, ?_⟩
  rw [Traces, acknowledge]
  simp only [if_true, hw, ackDelay_ok]
  refine Triple.bind (R := fun x l => x = a.1 ∧ l = []) (Triple.lift ?_) ?_
  · rintro l rfl
    exact ⟨a.1, rfl, ⟨rfl, rfl⟩, ⟨_, rfl⟩, by simp⟩
  intro x
  refine Triple.bind (R := fun y l => y = a ∧ l = []) (Triple.lift ?_) ?_
  · rintro l ⟨rfl, rfl⟩
    exact ⟨a, asBuffer_ok a, ⟨rfl, rfl⟩, ⟨_, rfl⟩, by simp⟩
  intro y
  refine Triple.bind (R := fun d l => y = a ∧ l = [] ∧
    d = BitVec.ofInt 32 (D.consts.aifs.us.toInt.tdiv 2)) (Triple.lift ?_) ?_
  · rintro l ⟨rfl, rfl⟩
    exact ⟨_, rfl, ⟨rfl, rfl, rfl⟩, ⟨_, rfl⟩, by simp⟩
  intro d
  refine Triple.bind (R := fun _ l => y = a ∧
    l = [.pause (BitVec.ofInt 32 (D.consts.aifs.us.toInt.tdiv 2))]) (Triple.await ?_) ?_
  · rintro l ⟨rfl, rfl, rfl⟩
    refine ⟨⟨⟨_, rfl⟩, by simp⟩, ⟨?_, by simp⟩, ?_⟩
    · exact ⟨[_], rfl⟩
    · intro r; exact ⟨rfl, rfl⟩
  intro _
  refine Triple.bind (R := fun _ l => y = a ∧
    l = [.pause (BitVec.ofInt 32 (D.consts.aifs.us.toInt.tdiv 2)),
      .send a ⟨D.config.channel, false⟩]) (Triple.await ?_) ?_
  · rintro l ⟨rfl, rfl⟩
    refine ⟨⟨⟨[_], rfl⟩, by simp⟩, ⟨?_, by simp⟩, ?_⟩
    · exact ⟨[], rfl⟩
    · intro r; exact ⟨rfl, rfl⟩
  intro _
  refine Triple.pure ?_
  rintro l ⟨rfl, rfl⟩
  refine ⟨⟨⟨[], by simp⟩, ?_⟩, ⟨[], by simp⟩, by simp⟩
  rintro s ⟨⟩
  exact ⟨Or.inr ⟨seq, ha⟩, rfl, rfl⟩

/-- The branch when there is nothing to acknowledge. -/
theorem acknowledge_neutral (D : Device) (a : Bool) (seq : Option Byte) (b : Arr 128)
    (h : ¬ (a = true ∧ seq.isSome = true)) (hb : AckBuffer D.format b) :
    Traces rxEvent (acknowledge D a seq b) fun u o =>
      u = [] ∧ ∀ s, o = some s → AckBuffer D.format s.txAck := by
  rw [Traces]
  cases a with
  | true =>
    cases seq with
    | some s => exact absurd ⟨rfl, rfl⟩ h
    | none =>
      refine Triple.pure ?_
      rintro l rfl
      refine ⟨⟨rfl, ?_⟩, rfl, by simp⟩
      rintro s ⟨⟩
      exact hb
  | false =>
    refine Triple.bind (R := fun _ l => l = []) (Triple.await_neutral rfl (fun _ => rfl) ?_) ?_
    · rintro l rfl
      exact ⟨⟨rfl, by simp⟩, fun _ => rfl⟩
    · intro _
      refine Triple.pure ?_
      rintro l rfl
      refine ⟨⟨rfl, ?_⟩, rfl, by simp⟩
      rintro s ⟨⟩
      exact hb

theorem deliver_traces (fb : FrameBuffer) :
    Traces rxEvent (rx (.driverReceived fb)) fun u o =>
      u <+: [.deliver fb] ∧ ∀ a, o = some a → u = [.deliver fb] := by
  rw [Traces, rx]
  refine Triple.await ?_
  rintro l rfl
  refine ⟨⟨⟨_, rfl⟩, by simp⟩, ⟨⟨[], rfl⟩, by simp⟩, fun r => ⟨⟨[], rfl⟩, fun _ _ => rfl⟩⟩

theorem interleave_prefix {E : Type} {t1 t2 t r1 r2 : List E} (h : Interleave t1 t2 t) :
    Interleave (t1 ++ r1) (t2 ++ r2) (t ++ (r1 ++ r2)) := by
  induction h with
  | nil => simpa using interleave_pair r1 r2
  | left _ ih => exact .left ih
  | right _ ih => exact .right ih

theorem interleave_nil_left {E : Type} {t u : List E} (h : Interleave [] t u) : u = t := by
  induction t generalizing u with
  | nil => cases h; rfl
  | cons x t ih => cases h with | right h => rw [ih h]

theorem handleReceived_triple (D : Device) (hF : D.format.Lawful) (s : RxState)
    (hs : AckBuffer D.format s.txAck) (b : Arr 128) :
    Triple rxEvent (fun l => ∃ l0, Complete D l0 ∧ l = l0 ++ [.got b]) (handleReceived D s b)
      (fun s' l => AckBuffer D.format s'.txAck ∧ Complete D l) (ReceiveLog D) := by
  rw [handleReceived]
  rcases C44_decision D b.1 with ⟨h, a, hh, hp, ha, he⟩ | ⟨hno, he⟩
  · rw [he]
    have hgot : ∀ l0, Complete D l0 → ReceiveLog D (l0 ++ [.got b]) := by
      intro l0 h0
      by_cases hack : AcksFrame D.config h ∧ h.seq.isSome = true
      · obtain ⟨hk, hq⟩ := hack
        obtain ⟨seq, hq⟩ := Option.isSome_iff_exists.1 hq
        obtain ⟨x, hx, -⟩ := acknowledge_traces D hF seq s.txAck hs
        exact h0.within (rest := _) (.acknowledged b h seq x _ hh hp hk hq hx
          (interleave_pair _ _))
      · exact h0.within (rest := [_]) (.delivered b h hh hp hack)
    refine Triple.bind (R := fun x l => x = some (a, h.seq) ∧
      ∃ l0, Complete D l0 ∧ l = l0 ++ [.got b]) (Triple.lift ?_) ?_
    · rintro l ⟨l0, h0, rfl⟩
      exact ⟨_, rfl, ⟨rfl, l0, h0, rfl⟩, hgot l0 h0⟩
    intro x
    by_cases hx : x = some (a, h.seq)
    · subst hx
      by_cases hack : a = true ∧ h.seq.isSome = true
      · obtain ⟨rfl, hq⟩ := hack
        obtain ⟨seq, hq⟩ := Option.isSome_iff_exists.1 hq
        obtain ⟨ab, hab, htr⟩ := acknowledge_traces D hF seq s.txAck hs
        rw [hq]
        refine Triple.join htr (deliver_traces _) ?_
        rintro l u1 u2 u o1 o2 ⟨-, l0, h0, rfl⟩ ⟨⟨r1, e1⟩, k1⟩ ⟨⟨r2, e2⟩, k2⟩ hi
        have hi2 := interleave_prefix (r1 := r1) (r2 := r2) hi
        rw [e1, e2] at hi2
        have hone := ReceivedOne.acknowledged b h seq ab _ hh hp (ha.1 rfl) hq hab hi2
        refine ⟨?_, ?_⟩
        · rw [List.append_assoc]
          exact h0.within (rest := r1 ++ r2) hone
        · rintro s' c rfl rfl
          obtain ⟨q1, -, q2⟩ := k1 _ rfl
          have q3 := k2 _ rfl
          refine ⟨q1, ?_⟩
          rw [q2] at hi
          rw [q3] at hi
          rw [List.append_assoc]
          exact h0.snoc (.acknowledged b h seq ab _ hh hp (ha.1 rfl) hq hab hi)
      · have hack' : ¬ (AcksFrame D.config h ∧ h.seq.isSome = true) := by rwa [← ha]
        refine Triple.join (acknowledge_neutral D a h.seq s.txAck hack hs) (deliver_traces _) ?_
        rintro l u1 u2 u o1 o2 ⟨-, l0, h0, rfl⟩ ⟨rfl, k1⟩ ⟨⟨r2, e2⟩, k2⟩ hi
        have hu := interleave_nil_left hi
        subst hu
        have hone := ReceivedOne.delivered b h hh hp hack'
        refine ⟨?_, ?_⟩
        · rw [List.append_assoc]
          refine h0.within (rest := r2) ?_
          rw [List.append_assoc, e2]
          exact hone
        · rintro s' c rfl rfl
          refine ⟨k1 _ rfl, ?_⟩
          rw [k2 _ rfl, List.append_assoc]
          exact h0.snoc hone
    · exact Triple.false fun l hl => hx hl.1
  · rw [he]
    refine Triple.bind (R := fun x l => x = none ∧ Complete D l) (Triple.lift ?_) ?_
    · rintro l ⟨l0, h0, rfl⟩
      have := h0.snoc (.dropped b hno)
      exact ⟨_, rfl, ⟨rfl, this⟩, this.log⟩
    · intro x
      cases x with
      | none => exact Triple.pure fun l hl => ⟨⟨hs, hl.2⟩, hl.2.log⟩
      | some y => exact Triple.false fun l hl => by cases hl.1

/-- What `listen` leaves. -/
def Listened (D : Device) (r : Bool × Option (Arr 128)) (l : List RxEvent) : Prop :=
  match r with
  | (true, some b) => ∃ l0, Complete D l0 ∧ l = l0 ++ [.got b]
  | _ => Complete D l

theorem listen_triple (D : Device) :
    Triple rxEvent (Complete D) (listen D) (Listened D) (Complete D) := by
  refine Triple.select_left (Q := fun (r : Bool × Arr 128) l =>
    if r.1 = true then ∃ l0, Complete D l0 ∧ l = l0 ++ [.got r.2] else Complete D l) ?_
    (rx_neutral rfl fun _ => rfl) ?_ ?_
  · refine Triple.await ?_
    intro l hl
    refine ⟨hl, by simpa [rxEvent] using hl, ?_⟩
    rintro ⟨r, b⟩
    cases r with
    | true => exact ⟨l, hl, by simp [rxEvent]⟩
    | false => simpa [rxEvent] using hl
  · rintro ⟨r, b⟩ l hl
    cases r with
    | true => exact hl
    | false => exact hl
  · intro c l hl
    exact hl

theorem giveUp_triple (D : Device) (s : RxState) (hs : AckBuffer D.format s.txAck) :
    Triple rxEvent (Complete D) (giveUp s)
      (fun s' l => AckBuffer D.format s'.txAck ∧ Complete D l) (ReceiveLog D) := by
  refine Triple.bind (R := fun _ => Complete D) (Triple.await_neutral rfl (fun _ => rfl) ?_) ?_
  · exact fun l hl => ⟨Complete.log hl, fun _ => hl⟩
  · exact fun _ => Triple.pure fun l hl => ⟨⟨hs, hl⟩, hl.log⟩

theorem receiveRound_triple (D : Device) (hF : D.format.Lawful) (s : RxState)
    (hs : AckBuffer D.format s.txAck) :
    Triple rxEvent (Complete D) (receiveRound D s)
      (fun s' l => AckBuffer D.format s'.txAck ∧ Complete D l) (ReceiveLog D) := by
  rw [receiveRound]
  refine Triple.bind (R := fun _ => Complete D) (Triple.await_neutral rfl (fun _ => rfl) ?_) ?_
  · exact fun l hl => ⟨hl.log, fun _ => hl⟩
  intro _
  refine Triple.bind (R := fun _ => Complete D) ?_ ?_
  · cases hh : s.held with
    | true => exact Triple.pure fun l hl => ⟨hl, hl.log⟩
    | false =>
      exact Triple.await_neutral rfl (fun _ => rfl) fun l hl => ⟨hl.log, fun _ => hl⟩
  intro _
  refine Triple.bind (R := Listened D)
    ((listen_triple D).conseq (fun _ h => h) (fun _ _ h => h) (fun _ h => h.log)) ?_
  rintro ⟨r, ob⟩
  cases r with
  | false => exact giveUp_triple D s hs
  | true =>
    cases ob with
    | none => exact giveUp_triple D s hs
    | some b => exact handleReceived_triple D hF s hs b

/-- The receive task, seen through its events. -/
theorem receiveTask_triple (D : Device) (hF : D.format.Lawful) :
    Triple rxEvent (fun l => l = []) (receiveTask D) (fun _ _ => False) (ReceiveLog D) := by
  refine Triple.pre (P := fun l => AckBuffer D.format ⟨List.replicate 128 0, by simp⟩ ∧ Complete D l)
    ?_ ?_
  · refine Triple.loop (s := (⟨false, ⟨List.replicate 128 0, by simp⟩⟩ : RxState))
      (I := fun (s : RxState) l => AckBuffer D.format s.txAck ∧ Complete D l)
      (fun s l h => h.2.log) (fun a => Empty.elim a) ?_
    intro s
    by_cases hs : AckBuffer D.format s.txAck
    · refine Triple.bind ((receiveRound_triple D hF s hs).pre fun l hl => hl.2) ?_
      intro s'
      exact Triple.pure fun l hl => ⟨hl, hl.2.log⟩
    · exact Triple.false fun l hl => hs hl.1
  · rintro l rfl
    refine ⟨Or.inl ?_, [], rfl, by simp⟩
    have := hF.ack_fits
    simp only [List.drop_replicate, List.take_replicate]
    rw [Nat.min_eq_left (by omega)]
    rfl

end Dot15d4.Props
