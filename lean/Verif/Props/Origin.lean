import Verif.Props.Network
import Verif.Props.CsmaCalls

/-!
# C79, C80: where the traffic of a network comes from
-/

namespace Dot15d4.Props
open Dot15d4 Out Spec Csma

/-- No package is given. -/
def NoFetch (l : List TxEvent) : Prop := ∀ p, .fetched p ∉ l

/-- What comes of a frame transmitted that was made of a package: it was made of a frame in it. -/
theorem prepared_madeFrom (D : Device) (hD : D.format.Lawful) {p : FrameBuffer} {b : Arr 128}
    {q : Option Byte} {cs : List TxEvent} (hp : Prepared D p.buffer b q cs) {h : Header}
    (hacc : Acceptable h.bytes) (hb : FrameIn D.format b h.bytes) :
    ∃ h0, Holds D.format p.buffer.1 h0 ∧ MadeFrom D h0 h := by
  cases hp with
  | noDeviceFrame hn e =>
    subst e
    obtain ⟨n, h1, -⟩ := hb
    rw [hn] at h1; cases h1
  | noIeeeFrame n hn hno e =>
    subst e
    obtain ⟨n', h1, h2⟩ := hb
    rw [hn] at h1; cases h1
    rw [h2] at hno
    exact absurd hacc hno
  | frame h0 n o0 o1 want hw0 hacc0 hn hb0 hwant hd hc hbuf =>
    refine ⟨h0, ⟨hw0, hacc0, n, hn, hb0⟩, o0, o1, want, hd, hc, ?_⟩
    have hl0 : h0.bytes.length = n := by
      have e := congrArg List.length hb0
      have hin := hD.frame_inside _ _ hn
      rw [RadioFormat.data, List.length_take, List.length_drop] at e
      omega
    have hl : (({ h0 with o0 := o0, o1 := o1 } : Header).overwrite D).bytes.length = n := by
      rw [overwrite_length, ← hl0]
      simp [Header.bytes]
    refine frameIn_unique hb ⟨n, ?_, ?_⟩
    · rw [hbuf]; exact hD.frame_stable _ _ _ hn hl
    · rw [hbuf]; exact data_putData _ _ _ _ (hD.frame_inside _ _ hn) hl

/-- What is transmitted is made of the last package given. -/
theorem attempt_package {D : Device} {packages : List (List TxEvent)}
    (hr : ∀ r ∈ packages, ∃ p t, r = TxEvent.fetched p :: t ∧ NoFetch t ∧
      ∀ c cfg, TxEvent.attempt c cfg ∈ t → ∃ q cs, Prepared D p.buffer c q cs)
    {l1 l3 : List TxEvent} {c : Arr 128} {cfg : TxConfig}
    (e : packages.flatten = l1 ++ .attempt c cfg :: l3) :
    ∃ l0 p l2 q cs, l1 = l0 ++ .fetched p :: l2 ∧ NoFetch l2 ∧ Prepared D p.buffer c q cs := by
  induction packages generalizing l1 with
  | nil => simp at e
  | cons r rs ih =>
    obtain ⟨p, t, rfl, ht, hat⟩ := hr r (by simp)
    simp only [List.flatten_cons, List.cons_append] at e
    cases l1 with
    | nil =>
      simp only [List.nil_append, List.cons.injEq] at e
      exact absurd e.1 (by simp)
    | cons y l1 =>
      simp only [List.cons_append, List.cons.injEq] at e
      obtain ⟨rfl, e⟩ := e
      have later : ∀ {l1'}, rs.flatten = l1' ++ .attempt c cfg :: l3 → l1 = t ++ l1' →
          ∃ l0 p' l2 q cs, TxEvent.fetched p :: l1 = l0 ++ .fetched p' :: l2 ∧ NoFetch l2 ∧
            Prepared D p'.buffer c q cs := by
        intro l1' e' e1
        obtain ⟨l0, p', l2, q, cs, h1, h2, h3⟩ := ih (fun r h => hr r (by simp [h])) e'
        exact ⟨.fetched p :: t ++ l0, p', l2, q, cs, by rw [e1, h1]; simp, h2, h3⟩
      rcases List.append_eq_append_iff.1 e with ⟨a, e1, e2⟩ | ⟨a, e1, e2⟩
      · exact later e2 e1
      · cases a with
        | nil => exact later (l1' := []) (by simpa using e2.symm) (by simpa using e1.symm)
        | cons y a =>
          simp only [List.cons_append, List.cons.injEq] at e2
          obtain ⟨rfl, -⟩ := e2
          subst e1
          obtain ⟨q, cs, h⟩ := hat c cfg (by simp)
          exact ⟨[], p, l1, q, cs, rfl, fun x hx => ht x (by simp [hx]), h⟩

theorem packageLog_head {D : Device} (hr : 1 ≤ D.consts.maxFrameRetries) {r : List TxEvent}
    {o : TxOutcome} (h : PackageLog D r o) :
    ∃ p t, r = TxEvent.fetched p :: t ∧ NoFetch t ∧
      ∀ c cfg, TxEvent.attempt c cfg ∈ t → ∃ q cs, Prepared D p.buffer c q cs := by
  obtain ⟨p, b, q, cs, n, h1, h2, h3, -, h5, -⟩ := C48_package hr h
  cases r with
  | nil => simp at h2
  | cons x t =>
    simp only [List.head?_cons, Option.some.injEq] at h2
    subst h2
    refine ⟨p, t, rfl, ?_, ?_⟩
    · intro p' hp'
      have : p' ∈ fetches t := List.mem_filterMap.2 ⟨_, hp', rfl⟩
      have e : fetches (.fetched p :: t) = p :: fetches t := rfl
      rw [e, List.cons.injEq] at h1
      rw [h1.2] at this
      cases this
    · intro c cfg hc
      have := h5 (c, cfg) (mem_attempts.2 (List.mem_cons_of_mem _ hc))
      rw [(Prod.mk.inj this).1]
      exact ⟨q, cs, h3⟩

theorem transmitLog_package {D : Device} (hr : 1 ≤ D.consts.maxFrameRetries) {l1 l3 : List TxEvent}
    {c : Arr 128} {cfg : TxConfig} (h : TransmitLog D (l1 ++ .attempt c cfg :: l3)) :
    ∃ l0 p l2 q cs, l1 = l0 ++ .fetched p :: l2 ∧ NoFetch l2 ∧ Prepared D p.buffer c q cs := by
  obtain ⟨packages, last, e, hp, hl⟩ := h
  rcases hl with rfl | ⟨rest, o, ho⟩
  · rw [List.append_nil] at e
    exact attempt_package (fun r h => (hp r h).elim fun _ => packageLog_head hr) e.symm
  · refine attempt_package (packages := packages ++ [last ++ rest]) (l3 := l3 ++ rest)
      (cfg := cfg) ?_ ?_
    · intro r h
      rcases List.mem_append.1 h with h | h
      · exact (hp r h).elim fun _ => packageLog_head hr
      · rw [List.mem_singleton.1 h]; exact packageLog_head hr ho
    · rw [List.flatten_append, List.flatten_singleton, ← List.append_assoc, ← e]
      simp

theorem txEvent_fetched {e : Ev CallAns} {p : FrameBuffer} (h : txEvent e = some (.fetched p)) :
    e = .ret (.tx, .driverTransmit) p := by
  cases e with
  | start e =>
    obtain ⟨tid, op⟩ := e
    cases tid <;> cases op <;> simp [txEvent] at h
  | ret e r =>
    obtain ⟨tid, op⟩ := e
    cases tid <;> cases op <;> simp only [txEvent] at h <;> try cases h
    · rfl
    · split at h <;> cases h

/-- What is transmitted by the transmit task of a device in a network is made of a package given
before. -/
theorem network_package {ι : Type} [DecidableEq ι] {D : ι → Device} (hD : ∀ i, Sane (D i))
    {g : List (ι × Ev CallAns)} (hg : Network D g) {pre post : List (ι × Ev CallAns)} {S : ι}
    {b : Arr 128} {c : TxConfig} (e : g = pre ++ (S, .start (.tx, .radioTransmit b c)) :: post) :
    ∃ p q cs, Prepared (D S) p.buffer b q cs ∧ (S, .ret (.tx, .driverTransmit) p) ∈ pre := by
  obtain ⟨o, ho⟩ := hg.run S
  have hlog := C48_device (D S) (hD S) ho
  have hsplit : (ofDevice S g).filterMap txEvent = (ofDevice S pre).filterMap txEvent ++
      .attempt b c :: (ofDevice S post).filterMap txEvent := by
    rw [e, ofDevice_append, ofDevice_cons]; simp [txEvent]
  rw [hsplit] at hlog
  obtain ⟨l0, p, l2, q, cs, h1, -, h3⟩ := transmitLog_package (hD S).retries hlog
  have : TxEvent.fetched p ∈ (ofDevice S pre).filterMap txEvent := by rw [h1]; simp
  obtain ⟨ev, h4, h5⟩ := List.mem_filterMap.1 this
  rw [txEvent_fetched h5] at h4
  exact ⟨p, q, cs, h3, mem_ofDevice.1 h4⟩

/-- What the receive task acknowledges is received before. -/
theorem network_acknowledged {ι : Type} [DecidableEq ι] {D : ι → Device} (hD : ∀ i, Sane (D i))
    {g : List (ι × Ev CallAns)} (hg : Network D g) {pre post : List (ι × Ev CallAns)} {R : ι}
    {a : Arr 128} {c : TxConfig} (e : g = pre ++ (R, .start (.rx, .radioTransmit a c)) :: post) :
    ∃ rb c2 h s, Holds (D R).format rb.1 h ∧ PassedOn (D R) h ∧ AcksFrame (D R).config h ∧
      h.seq = some s ∧ CarriesAck (D R).format s a ∧
      (R, .ret (.rx, .radioReceive c2) (true, rb)) ∈ pre := by
  obtain ⟨o, ho⟩ := hg.run R
  have hsplit : (ofDevice R g).filterMap rxEvent = (ofDevice R pre).filterMap rxEvent ++
      .send a c :: (ofDevice R post).filterMap rxEvent := by
    rw [e, ofDevice_append, ofDevice_cons]; simp [rxEvent]
  obtain ⟨l0, l2, rb, h, s, e1, -, -, hh, hpass, hacks, hseq, hack⟩ :=
    C65_ack_means_received (D R) (hD R) ho hsplit
  have hgot : RxEvent.got rb ∈ (ofDevice R pre).filterMap rxEvent := by rw [e1]; simp
  obtain ⟨ev, h3, h4⟩ := List.mem_filterMap.1 hgot
  obtain ⟨c2, rfl⟩ := rxEvent_got h4
  exact ⟨rb, c2, h, s, hh, hpass, hacks, hseq, hack, mem_ofDevice.1 h3⟩

/-- What the receive task hands over is received before. -/
theorem deliver_means_received (R : Device) (hR : Sane R) {t : List (Ev CallAns)} {o : Fin Empty}
    (he : Exec (runDevice R) t o) {l1 l3 : List RxEvent} {fb : FrameBuffer}
    (ht : t.filterMap rxEvent = l1 ++ .deliver fb :: l3) :
    ∃ (l0 l2 : List RxEvent) (h : Header),
      l1 = l0 ++ .got fb.buffer :: l2 ∧ NoGot l2 ∧ (∀ b, .deliver b ∉ l2) ∧ fb.dirty = true ∧
      Holds R.format fb.buffer.1 h ∧ PassedOn R h := by
  obtain ⟨rounds, last, e, hr, hl⟩ := C44_device R hR he
  obtain ⟨rounds', rest, e', hr'⟩ : ∃ (rounds' : List (List RxEvent)) (rest : List RxEvent),
      rounds'.flatten = rounds.flatten ++ last ++ rest ∧ ∀ r ∈ rounds', ReceivedOne R r := by
    rcases hl with rfl | ⟨rest, hl⟩
    · exact ⟨rounds, [], by simp, hr⟩
    · refine ⟨rounds ++ [last ++ rest], rest, by simp, fun r h => ?_⟩
      rcases List.mem_append.1 h with h | h
      · exact hr r h
      · rw [List.mem_singleton.1 h]; exact hl
  rw [← e, ht, List.append_assoc, List.cons_append] at e'
  obtain ⟨l0, b, l2, r, h1, h2, h3⟩ :=
    send_in_round (fun r h => receivedOne_head (hr' r h)) (by simp) e'
  have hround := hr' _ h3
  generalize hrr : RxEvent.got b :: (l2 ++ .deliver fb :: r) = q at hround
  cases hround with
  | dropped b' hno => simp at hrr
  | delivered b' h hh hps hna =>
    simp only [List.cons.injEq, RxEvent.got.injEq] at hrr
    obtain ⟨rfl, hrr⟩ := hrr
    cases l2 with
    | nil =>
      simp only [List.nil_append, List.cons.injEq, RxEvent.deliver.injEq] at hrr
      obtain ⟨rfl, -⟩ := hrr
      exact ⟨l0, [], h, h1, h2, by simp, rfl, hh, hps⟩
    | cons x l2 => simp at hrr
  | acknowledged b' h s' a' l' hh hps ha hs' hca hi =>
    simp only [List.cons.injEq, RxEvent.got.injEq] at hrr
    obtain ⟨rfl, rfl⟩ := hrr
    have key : fb = ⟨b, true⟩ ∧ ∀ b, RxEvent.deliver b ∉ l2 := by
      have ex := interleave_21 hi
      rcases l2 with _ | ⟨x, _ | ⟨y, _ | ⟨z, l2⟩⟩⟩
      · simp at ex
        exact ⟨ex.1, by simp⟩
      · simp at ex
        rcases ex with ⟨rfl, -⟩ | ⟨rfl, ⟨rfl, -⟩, -⟩ <;> simp_all
      · simp at ex
        simp [ex]
      · simp at ex
    obtain ⟨rfl, k⟩ := key
    exact ⟨l0, l2, h, h1, h2, k, rfl, hh, hps⟩

/-- What a device receives and does not drop comes from another device's package. -/
theorem network_conveyed {ι : Type} [DecidableEq ι] {D : ι → Device} (hD : ∀ i, Sane (D i))
    {g : List (ι × Ev CallAns)} (hg : Network D g) {pre post : List (ι × Ev CallAns)} {R : ι}
    {rb : Arr 128} {c : RxConfig} {h : Header} (hh : Holds (D R).format rb.1 h)
    (hpass : PassedOn (D R) h)
    (e : g = pre ++ (R, .ret (.rx, .radioReceive c) (true, rb)) :: post) :
    ∃ S h0, S ≠ R ∧ Conveyed D (pre ++ [(R, .ret (.rx, .radioReceive c) (true, rb))]) S R h0 h rb := by
  obtain ⟨S, e', hSR, he', htr⟩ := hg.medium pre R _ post h.bytes e ⟨rfl, holds_frameIn hh⟩
  obtain ⟨g0, g2, hpre⟩ := List.append_of_mem he'
  have e2 : g = g0 ++ (S, e') :: (g2 ++ (R, .ret (.rx, .radioReceive c) (true, rb)) :: post) := by
    rw [e, hpre]; simp
  cases e' with
  | ret e r => exact htr.elim
  | start ev =>
  obtain ⟨tid, op⟩ := ev
  cases op with
  | radioTransmit b c1 =>
    cases tid with
    | rx =>
      exfalso
      obtain ⟨-, -, -, s2, -, -, -, -, hack2, -⟩ := network_acknowledged hD hg e2
      have hb : h.bytes = immAck s2 := by rw [← hack2]; exact htr.symm
      simp only [Header.bytes, immAck, List.cons_append, List.nil_append,
        List.append_assoc, List.cons.injEq] at hb
      refine hpass.2 ?_
      show (decodeFc _ _).frameType = .ack
      rw [hb.1, hb.2.1]; decide
    | tx =>
      obtain ⟨p, q, cs, h1, h2⟩ := network_package hD hg e2
      obtain ⟨g00, g1, hg0⟩ := List.append_of_mem h2
      obtain ⟨h0, h3, h4⟩ := prepared_madeFrom (D S) (hD S).format h1 hh.2.1 htr
      exact ⟨S, h0, hSR, p, b, c1, c, g00, g1, g2, [], h3, h4, htr, hh, by
        rw [hpre, hg0]; simp⟩
  | _ => cases tid <;> exact htr.elim

theorem _root_.Dot15d4.Spec.Conveyed.append {ι : Type} {D : ι → Device} {g : List (ι × Ev CallAns)} {S R : ι}
    {h0 h : Header} {rb : Arr 128} (hc : Conveyed D g S R h0 h rb) (g' : List (ι × Ev CallAns)) :
    Conveyed D (g ++ g') S R h0 h rb := by
  obtain ⟨p, b, c1, c2, g0, g1, g2, g3, h1, h2, h3, h4, h5⟩ := hc
  exact ⟨p, b, c1, c2, g0, g1, g2, g3 ++ g', h1, h2, h3, h4, by rw [h5]; simp⟩

/-- **C79**: nothing is handed over that was not given to another device.  In every history of a
network, whenever a device hands a buffer to its upper layer, this buffer was received before and
holds a frame that is for the device and no acknowledgement (`PassedOn`), and another device was given
a package with that frame before - up to the ack request bit and the PAN ids that device overwrites -
and transmitted it. -/
theorem C79_no_creation {ι : Type} [DecidableEq ι] (D : ι → Device) (hD : ∀ i, Sane (D i))
    {g : List (ι × Ev CallAns)} (hg : Network D g) {pre post : List (ι × Ev CallAns)} {R : ι}
    {tid : Csma.Tid} {fb : FrameBuffer}
    (e : g = pre ++ (R, .start (tid, .driverReceived fb)) :: post) :
    ∃ S h0 h, S ≠ R ∧ Conveyed D pre S R h0 h fb.buffer ∧ PassedOn (D R) h ∧ fb.dirty = true := by
  obtain ⟨o, ho⟩ := hg.run R
  have hrx : tid = .rx := ((C59_calls (D R) ho (.start (tid, .driverReceived fb))
    (mem_ofDevice.2 (by rw [e]; simp))).2.1 tid fb rfl).1
  subst hrx
  have hsplit : (ofDevice R g).filterMap rxEvent = (ofDevice R pre).filterMap rxEvent ++
      .deliver fb :: (ofDevice R post).filterMap rxEvent := by
    rw [e, ofDevice_append, ofDevice_cons]; simp [rxEvent]
  obtain ⟨l0, l2, h, e1, -, -, hd, hh, hpass⟩ := deliver_means_received (D R) (hD R) ho hsplit
  have hgot : RxEvent.got fb.buffer ∈ (ofDevice R pre).filterMap rxEvent := by rw [e1]; simp
  obtain ⟨ev, h3, h4⟩ := List.mem_filterMap.1 hgot
  obtain ⟨c2, rfl⟩ := rxEvent_got h4
  obtain ⟨pre1, pre2, h5⟩ := List.append_of_mem (mem_ofDevice.1 h3)
  obtain ⟨S, h0, h6, h7⟩ := network_conveyed hD hg (pre := pre1) (c := c2)
    (post := pre2 ++ (R, .start (.rx, .driverReceived fb)) :: post) hh hpass (by rw [e, h5]; simp)
  refine ⟨S, h0, h, h6, ?_, hpass, hd⟩
  rw [h5]
  have := h7.append pre2
  simpa using this

/-- **C80**: every transmission goes back to a package.  In every history of a network, what a device
transmits is either what it makes of a package it was given before, or the acknowledgement of a frame
that it received before, and that another device was given before as a package, up to the ack request
bit and PAN ids. -/
theorem C80_transmissions {ι : Type} [DecidableEq ι] (D : ι → Device) (hD : ∀ i, Sane (D i))
    {g : List (ι × Ev CallAns)} (hg : Network D g) {pre post : List (ι × Ev CallAns)} {i : ι}
    {tid : Csma.Tid} {b : Arr 128} {c : TxConfig}
    (e : g = pre ++ (i, .start (tid, .radioTransmit b c)) :: post) :
    (∃ p q cs, tid = .tx ∧ Prepared (D i) p.buffer b q cs ∧
      (i, .ret (.tx, .driverTransmit) p) ∈ pre) ∨
    (∃ S h0 h s rb, tid = .rx ∧ S ≠ i ∧ Conveyed D pre S i h0 h rb ∧ PassedOn (D i) h ∧
      AcksFrame (D i).config h ∧ h.seq = some s ∧ CarriesAck (D i).format s b) := by
  cases tid with
  | tx =>
    left
    obtain ⟨p, q, cs, h1, h2⟩ := network_package hD hg e
    exact ⟨p, q, cs, rfl, h1, h2⟩
  | rx =>
    right
    obtain ⟨rb, c2, h, s, hh, hpass, hacks, hseq, hack, hm⟩ := network_acknowledged hD hg e
    obtain ⟨pre1, pre2, h5⟩ := List.append_of_mem hm
    obtain ⟨S, h0, h6, h7⟩ := network_conveyed hD hg (pre := pre1) (c := c2)
      (post := pre2 ++ (i, .start (.rx, .radioTransmit b c)) :: post) hh hpass (by rw [e, h5]; simp)
    refine ⟨S, h0, h, s, rb, rfl, h6, ?_, hpass, hacks, hseq, hack⟩
    rw [h5]
    have := h7.append pre2
    simpa using this

/-- A network to which no packages are given stays silent: nothing is transmitted and nothing is
handed over, whatever noise the radios receive. -/
theorem C80_quiet {ι : Type} [DecidableEq ι] (D : ι → Device) (hD : ∀ i, Sane (D i))
    {g : List (ι × Ev CallAns)} (hg : Network D g)
    (hno : ∀ i p, (i, .ret (.tx, .driverTransmit) p) ∉ g) :
    (∀ i tid b c, (i, .start (tid, .radioTransmit b c)) ∉ g) ∧
    (∀ i tid fb, (i, .start (tid, .driverReceived fb)) ∉ g) := by
  have hconv : ∀ {g'}, (∀ x ∈ g', x ∈ g) → ∀ {S R h0 h rb}, ¬ Conveyed D g' S R h0 h rb := by
    rintro g' hs S R h0 h rb ⟨p, b, c1, c2, g0, g1, g2, g3, -, -, -, -, h5⟩
    exact hno S p (hs _ (by rw [h5]; simp))
  constructor
  · intro i tid b c hm
    obtain ⟨pre, post, e⟩ := List.append_of_mem hm
    have hs : ∀ x ∈ pre, x ∈ g := fun x hx => by rw [e]; simp [hx]
    rcases C80_transmissions D hD hg e with ⟨p, q, cs, -, -, h⟩ | ⟨S, h0, h, s, rb, -, -, h, -⟩
    · exact hno i p (hs _ h)
    · exact hconv hs h
  · intro i tid fb hm
    obtain ⟨pre, post, e⟩ := List.append_of_mem hm
    have hs : ∀ x ∈ pre, x ∈ g := fun x hx => by rw [e]; simp [hx]
    obtain ⟨S, h0, h, -, h1, -⟩ := C79_no_creation D hD hg e
    exact hconv hs h1

/-- Non-vacuity for C79 and C80: a network in which a package is transmitted, handed over by another
device and acknowledged. -/
example : ∃ (g : List (Bool × Ev CallAns)), Network (fun _ => exampleDevice) g ∧
    (true, .start (.rx, .driverReceived ⟨askingFrame, true⟩)) ∈ g ∧
    (true, .start (.rx, .radioTransmit nineAck ⟨.c26, false⟩)) ∈ g ∧
    (false, .start (.tx, .radioTransmit askingFrame ⟨.c26, true⟩)) ∈ g := by
  obtain ⟨g, h1, h2, h3, h4, -⟩ := exampleNetwork
  exact ⟨g, h1, h2, h3, h4⟩

set_option maxRecDepth 40000 in
/-- Non-vacuity for `C80_quiet`: a network in which noise is received. -/
example : ∃ (g : List (Bool × Ev CallAns)), Network (fun _ => exampleDevice) g ∧
    (∀ i p, (i, .ret (.tx, .driverTransmit) p) ∉ g) ∧
    (true, .ret (.rx, .radioReceive ⟨.c26⟩) (true, padded [200])) ∈ g := by
  obtain ⟨t, h1, h2⟩ := poll_outcome scripted 5 (runDevice exampleDevice)
    ⟨none, some (padded [200]), none, true⟩ []
  rw [List.nil_append] at h1
  have hx := outcome_pending h2
  have hr : radioReceptions t = [padded [200]] := by rw [← h1]; rfl
  have hg : t.filterMap rxEvent = [.got (padded [200])] := by rw [← h1]; rfl
  have hf : fetches (t.filterMap txEvent) = [] := by rw [← h1]; rfl
  refine ⟨t.map (true, ·), ⟨?_, ?_⟩, ?_, ?_⟩
  · intro i
    cases i
    · refine ⟨.cut, ?_⟩
      simp only [ofDevice_map, Bool.true_eq_false, if_false]
      exact Exec.cut _
    · refine ⟨.pending, ?_⟩
      simp only [ofDevice_map, if_true]
      exact hx
  · intro pre i e post m hg hrec
    exfalso
    have hm : (i, e) ∈ t.map ((true, ·) : Ev CallAns → Bool × Ev CallAns) := by rw [hg]; simp
    obtain ⟨e', he', h⟩ := List.mem_map.1 hm
    cases h
    obtain ⟨b, hb, n, hn, -⟩ := receives_mem he' hrec
    rw [hr, List.mem_singleton] at hb
    subst hb
    revert hn
    simp only [show exampleDevice.format.frameLen (padded [200]).1 = none from rfl]
    simp
  · intro i p hm
    obtain ⟨e', he', h⟩ := List.mem_map.1 hm
    cases h
    have : p ∈ fetches (t.filterMap txEvent) :=
      List.mem_filterMap.2 ⟨_, List.mem_filterMap.2 ⟨_, he', rfl⟩, rfl⟩
    rw [hf] at this; cases this
  · have : RxEvent.got (padded [200]) ∈ t.filterMap rxEvent := by rw [hg]; simp
    obtain ⟨e, he, h⟩ := List.mem_filterMap.1 this
    obtain ⟨c, rfl⟩ := rxEvent_got h
    have hc : c = ⟨.c26⟩ := by
      have := (C59_channel exampleDevice hx _ he).2 .rx c rfl
      cases c
      simp only at this
      rw [this]; rfl
    subst hc
    exact List.mem_map.2 ⟨_, he, rfl⟩

end Dot15d4.Props
