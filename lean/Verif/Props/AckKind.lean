import Verif.Spec.AckKind
import Verif.Props.Delivery

/-!
# C94: acknowledgements are those of the standard

The receive task (dot15d4/src/csma/mod.rs) with the default options against IEEE 802.15.4, 6.7.4.2.
-/

namespace Dot15d4.Props
open Dot15d4 Spec Csma Out

/-- The options that decide about acknowledgements, and the frame filter, have their default. -/
def DefaultAcks (cfg : Config) : Prop :=
  cfg.ackUnicast = true ∧ cfg.ackBroadcast = false ∧ cfg.ackEverything = false ∧
  cfg.ignoreNotForUs = true

/-- The full property: whenever the receive task of a device transmits, it transmits the
acknowledgement the standard has for the frame it received last. -/
def C94_statement : Prop :=
  ∀ (R : Device), Sane R → DefaultAcks R.config →
  ∀ (t : List (Ev CallAns)) (o : Fin Empty), Exec (runDevice R) t o →
  ∀ (l1 l3 : List RxEvent) (a : Arr 128) (cfg : TxConfig),
  t.filterMap rxEvent = l1 ++ .send a cfg :: l3 →
  ∃ (l0 l2 : List RxEvent) (rb : Arr 128) (h : Header) (s : Byte), l1 = l0 ++ .got rb :: l2 ∧
    NoGot l2 ∧ Holds R.format rb.1 h ∧ StdAck h (.immediate s) ∧ ackFrame R.format a = immAck s

/-- With the default options what a device acknowledges was sent to it alone, with the ack request
field set. -/
theorem default_acks {R : Device} (hd : DefaultAcks R.config) {h : Header} (hp : PassedOn R h)
    (ha : AcksFrame R.config h) : h.fc.ackRequest = true ∧ Unicast h := by
  obtain ⟨d1, d2, d3, d4⟩ := hd
  rcases ha with ha | ⟨ha, ⟨-, ha'⟩ | ⟨⟨a, ha1, ha2⟩, -⟩⟩
  · rw [d3] at ha; cases ha
  · rw [d2] at ha'; cases ha'
  · refine ⟨ha, a, ha1, ha2, ?_⟩
    have hf := hp.1.resolve_right (by simp [d4])
    simp only [ForUs, ha1] at hf
    intro e
    rcases hf.2 with h1 | h1 | h1 <;> rw [e] at h1 <;> cases h1

/-- **C94**, as far as it is true: the acknowledgement is the standard's, unless the frame has
version 2 or its type is neither data nor MAC command (in which case the standard has none, or
another). -/
theorem C94_acks_partial (R : Device) (hR : Sane R) (hd : DefaultAcks R.config)
    {t : List (Ev CallAns)} {o : Fin Empty} (he : Exec (runDevice R) t o)
    {l1 l3 : List RxEvent} {a : Arr 128} {cfg : TxConfig}
    (ht : t.filterMap rxEvent = l1 ++ .send a cfg :: l3) :
    ∃ (l0 l2 : List RxEvent) (rb : Arr 128) (h : Header) (s : Byte), l1 = l0 ++ .got rb :: l2 ∧
      NoGot l2 ∧ Holds R.format rb.1 h ∧ ackFrame R.format a = immAck s ∧
      h.fc.ackRequest = true ∧ Unicast h ∧ h.seq = some s ∧
      (h.fc.frameVersion = .v2003 ∨ h.fc.frameVersion = .v2006 →
        h.fc.frameType = .data ∨ h.fc.frameType = .macCommand → StdAck h (.immediate s)) := by
  obtain ⟨l0, l2, rb, h, s, h1, h2, -, hh, hp, ha, hs, hc⟩ := C65_ack_means_received R hR he ht
  obtain ⟨k1, k2⟩ := default_acks hd hp ha
  exact ⟨l0, l2, rb, h, s, h1, h2, hh, hc, k1, k2, hs, fun v ty => .immediate ⟨k1, k2, ty⟩ v hs⟩

/-- What a device receives it deals with before it receives again. -/
theorem device_round (R : Device) (hR : Sane R) {t : List (Ev CallAns)} {o : Fin Empty}
    (he : Exec (runDevice R) t o) {l1 l2 l3 : List RxEvent} {rb rb' : Arr 128}
    (ht : t.filterMap rxEvent = l1 ++ .got rb :: (l2 ++ .got rb' :: l3)) (h2 : NoGot l2) :
    ReceivedOne R (.got rb :: l2) := by
  obtain ⟨rounds, last, e, hr, hl⟩ := C44_device R hR he
  refine hr _ (round_between (fun r h => receivedOne_head (hr r h)) ?_ (e.symm.trans ht) h2)
  rcases hl with rfl | ⟨rest, hl⟩
  · exact .inl rfl
  · cases last with
    | nil => exact .inl rfl
    | cons x last =>
      obtain ⟨c, u, e1, hu⟩ := receivedOne_head hl
      simp only [List.cons_append, List.cons.injEq] at e1
      refine .inr ⟨c, last, by rw [e1.1], ?_⟩
      rw [← e1.2] at hu
      exact (noGot_append.1 hu).1

/-- **C94**, the other way round: a frame for the device for which the standard has an immediate
acknowledgement is acknowledged so before anything else is received. -/
theorem C94_every (R : Device) (hR : Sane R) (hd : DefaultAcks R.config)
    {t : List (Ev CallAns)} {o : Fin Empty} (he : Exec (runDevice R) t o)
    {l1 l2 l3 : List RxEvent} {rb rb' : Arr 128}
    (ht : t.filterMap rxEvent = l1 ++ .got rb :: (l2 ++ .got rb' :: l3)) (h2 : NoGot l2)
    {h : Header} (hh : Holds R.format rb.1 h)
    (hf : ForUs R.consts.panId R.consts.implicitBroadcast R.hardwareAddress h) {s : Byte}
    (hs : StdAck h (.immediate s)) :
    ∃ a, .send a ⟨R.config.channel, false⟩ ∈ l2 ∧ ackFrame R.format a = immAck s := by
  obtain ⟨⟨k1, ⟨ad, k2, k3, k4⟩, k5⟩, -, k6⟩ : AsksForAck h ∧ (h.fc.frameVersion = .v2003 ∨
      h.fc.frameVersion = .v2006) ∧ h.seq = some s := by
    cases hs with | immediate h1 h2 h3 => exact ⟨h1, h2, h3⟩
  have hps : PassedOn R h := ⟨.inl hf, by rcases k5 with e | e <;> rw [e] <;> decide⟩
  have hacks : AcksFrame R.config h := .inr ⟨k1, .inr ⟨⟨ad, k2, k3⟩, hd.1⟩⟩
  obtain ⟨v, hv, hex⟩ := (examine_header R rb.1 h hh).1 hps
  have key : ∀ h', Holds R.format rb.1 h' → PassedOn R h' →
      AcksFrame R.config h' ∧ h'.seq = some s := by
    intro h' hh' hps'
    obtain ⟨v', hv', hex'⟩ := (examine_header R rb.1 h' hh').1 hps'
    rw [hex] at hex'
    simp only [ok.injEq, Option.some.injEq, Prod.mk.injEq] at hex'
    obtain ⟨rfl, e⟩ := hex'
    exact ⟨hv'.1 (hv.2 hacks), by rw [← e, k6]⟩
  have hround := device_round R hR he ht h2
  generalize hrr : RxEvent.got rb :: l2 = r at hround
  cases hround with
  | dropped b' hno =>
    cases hrr
    exact absurd hps (hno h hh)
  | delivered b' h' hh' hps' hna =>
    cases hrr
    obtain ⟨h1, h2⟩ := key h' hh' hps'
    exact absurd ⟨h1, by rw [h2]; rfl⟩ hna
  | acknowledged b' h' s' a l' hh' hps' ha hs' hca hi =>
    cases hrr
    obtain ⟨-, h2⟩ := key h' hh' hps'
    rw [hs'] at h2; cases h2
    exact ⟨a, by rcases interleave_21 hi with rfl | rfl | rfl <;> simp, hca⟩

/-- A data frame of version 2 to a short address, that asks for an acknowledgement. -/
def asking2015 : Header :=
  { o0 := 0x61, o1 := 0xa8, seq := some 9
    addressing := some ⟨some 0xffff, .short ⟨[7, 8], rfl⟩, none, .short ⟨[1, 2], rfl⟩⟩
    rest := [1, 2, 3] }

set_option maxRecDepth 4000 in
theorem asking2015_holds : Holds exampleDevice.format (padded (12 :: asking2015.bytes)).1 asking2015 := by
  refine ⟨⟨by decide, by decide, by decide, by decide⟩, ⟨by decide, by decide, 0x61, 0xa8, _, rfl,
    by decide, by decide, by decide, by decide, by decide, by decide⟩, 12, rfl, rfl⟩

set_option maxRecDepth 40000 in
/-- Two frames that ask for an acknowledgement, one of version 1 and one of version 2, are received:
both are acknowledged alike.  (Non-vacuity of `C94_acks_partial` and `C94_every`.) -/
theorem both_acknowledged : ∃ t, Exec (runDevice exampleDevice) t .pending ∧
    t.filterMap rxEvent =
      [] ++ .got askingFrame :: ([.pause 500, .send (padded [3, 2, 0x10, 9]) ⟨.c26, false⟩,
        .deliver ⟨askingFrame, true⟩] ++ .got (padded (12 :: asking2015.bytes)) ::
      [.pause 500, .send (padded [3, 2, 0x10, 9]) ⟨.c26, false⟩,
        .deliver ⟨padded (12 :: asking2015.bytes), true⟩]) := by
  obtain ⟨t, h1, h2⟩ := poll_outcome hearing 20 (runDevice exampleDevice)
    ([askingFrame, padded (12 :: asking2015.bytes)], ⟨none, none, none, true⟩) []
  rw [List.nil_append] at h1
  exact ⟨t, outcome_pending h2, by rw [← h1]; rfl⟩

/-- Non-vacuity of `C94_every`: the standard has an immediate acknowledgement for `exchanged`, the
frame in `askingFrame`. -/
example : StdAck exchanged (.immediate 9) ∧ DefaultAcks exampleDevice.config ∧
    ForUs exampleDevice.consts.panId exampleDevice.consts.implicitBroadcast
      exampleDevice.hardwareAddress exchanged :=
  ⟨.immediate ⟨by decide, ⟨_, rfl, by decide, by decide⟩, by decide⟩ (by decide) rfl,
    ⟨rfl, rfl, rfl, rfl⟩, Or.inr rfl, Or.inr (Or.inl rfl)⟩

/-- Only one header is found in a buffer, as far as its frame control field is concerned. -/
theorem holds_fc {F : RadioFormat} {b : Bytes} {h h' : Header} (hh : Holds F b h)
    (hh' : Holds F b h') : h.fc = h'.fc := by
  obtain ⟨-, -, n, e1, e2⟩ := hh
  obtain ⟨-, -, n', e1', e2'⟩ := hh'
  rw [e1] at e1'
  cases e1'
  have e := e2.symm.trans e2'
  simp only [Header.bytes, List.append_assoc, List.cons_append, List.nil_append,
    List.cons.injEq] at e
  show decodeFc _ _ = decodeFc _ _
  rw [e.1, e.2.1]

/-- The full property is false: a frame of version 2 is answered with an immediate
acknowledgement. -/
theorem C94_false : ¬ C94_statement := by
  intro hs
  obtain ⟨t, he, ht⟩ := both_acknowledged
  have ht' : t.filterMap rxEvent = ([.got askingFrame, .pause 500,
      .send (padded [3, 2, 0x10, 9]) ⟨.c26, false⟩, .deliver ⟨askingFrame, true⟩] ++
      .got (padded (12 :: asking2015.bytes)) :: [.pause 500]) ++
      .send (padded [3, 2, 0x10, 9]) ⟨.c26, false⟩ ::
        [.deliver ⟨padded (12 :: asking2015.bytes), true⟩] := ht
  obtain ⟨l0, l2, rb, h, s, e, hn, hh, hstd, -⟩ := hs exampleDevice
    ⟨lengthFormat_lawful, by decide, by decide, by decide, by decide⟩ ⟨rfl, rfl, rfl, rfl⟩ t _ he _ _ _
    _ ht'
  have hrb : rb = padded (12 :: asking2015.bytes) := by
    rcases List.append_eq_append_iff.1 e with ⟨m, e1, e2⟩ | ⟨m, e1, e2⟩
    · cases m with
      | nil =>
        simp only [List.nil_append, List.cons.injEq, RxEvent.got.injEq] at e2
        exact e2.1.symm
      | cons x m =>
        simp only [List.cons_append, List.cons.injEq] at e2
        obtain ⟨rfl, e2⟩ := e2
        cases m with
        | nil => simp at e2
        | cons y m => simp at e2
    · cases m with
      | nil =>
        simp only [List.nil_append, List.cons.injEq, RxEvent.got.injEq] at e2
        exact e2.1
      | cons x m =>
        simp only [List.cons_append, List.cons.injEq] at e2
        exact absurd (by rw [e2.2]; simp) (hn (padded (12 :: asking2015.bytes)))
  subst hrb
  have hv : h.fc.frameVersion = .v2020 := by rw [holds_fc hh asking2015_holds]; decide
  cases hstd with
  | immediate _ hv' _ => rcases hv' with e | e <;> rw [hv] at e <;> cases e

end Dot15d4.Props
