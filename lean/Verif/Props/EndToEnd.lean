import Verif.Props.Emit
import Verif.Props.Exchange

/-!
# C69: a built frame is what arrives
-/

namespace Dot15d4.Props
open Dot15d4 Out Spec Csma

/-! ## A frame has one header -/

theorem panBytes_inj {p q : Option (BitVec 16)} {r r' : Bytes} (h : p.isSome = q.isSome)
    (e : panBytes p ++ r = panBytes q ++ r') : p = q ∧ r = r' := by
  cases p with
  | none =>
    cases q with
    | none => exact ⟨rfl, e⟩
    | some q => cases h
  | some p =>
    cases q with
    | none => cases h
    | some q =>
      simp only [panBytes, List.cons_append, List.nil_append, List.cons.injEq] at e
      obtain ⟨e0, e1, e2⟩ := e
      refine ⟨?_, e2⟩
      have e0 := congrArg BitVec.toNat e0
      have e1 := congrArg BitVec.toNat e1
      simp only [BitVec.toNat_ofNat] at e0 e1
      have := p.isLt
      have := q.isLt
      congr 1
      apply BitVec.eq_of_toNat_eq
      omega

theorem addrBytes_inj {p q : Address} {r r' : Bytes} (h : p.mode = q.mode)
    (e : addrBytes p ++ r = addrBytes q ++ r') : p = q ∧ r = r' := by
  cases p with
  | absent => cases q <;> first | exact ⟨rfl, e⟩ | cases h
  | short a =>
    cases q with
    | absent => cases h
    | short b =>
      obtain ⟨e1, e2⟩ := List.append_inj e (by simp [addrBytes, a.2, b.2])
      refine ⟨?_, e2⟩
      simp only [addrBytes, List.reverse_inj] at e1
      rw [Subtype.ext e1]
    | extended _ => cases h
  | extended a =>
    cases q with
    | absent => cases h
    | short _ => cases h
    | extended b =>
      obtain ⟨e1, e2⟩ := List.append_inj e (by simp [addrBytes, a.2, b.2])
      refine ⟨?_, e2⟩
      simp only [addrBytes, List.reverse_inj] at e1
      rw [Subtype.ext e1]

/-- A frame is split into a header and the rest in one way. -/
theorem header_unique {h h' : Header} (hw : h.WellFormed) (hw' : h'.WellFormed)
    (e : h.bytes = h'.bytes) : h = h' := by
  obtain ⟨o0, o1, seq, adr, rest⟩ := h
  obtain ⟨o0', o1', seq', adr', rest'⟩ := h'
  simp only [Header.bytes, List.append_assoc, List.cons_append, List.nil_append,
    List.cons.injEq] at e
  obtain ⟨rfl, rfl, e⟩ := e
  obtain ⟨s1, w⟩ := hw
  obtain ⟨s2, w'⟩ := hw'
  simp only [Header.fc] at s1 s2
  have es : seq = seq' ∧ addressingBytes adr ++ rest = addressingBytes adr' ++ rest' := by
    rw [← s1] at s2
    cases seq <;> cases seq' <;> simp at s2 <;> simpa using e
  obtain ⟨rfl, e'⟩ := es
  replace e := e'
  have size : ∀ (a : Addressing) (r : Bytes), fcPans o0 o1 = some ⟨a.dstPan.isSome, a.srcPan.isSome⟩ →
      a.dst.mode = (decodeFc o0 o1).dstMode → a.src.mode = (decodeFc o0 o1).srcMode →
      (a.bytes ++ r).length = fcAddrLen o0 o1 ⟨a.dstPan.isSome, a.srcPan.isSome⟩ + r.length := by
    intro a r _ h1 h2
    simp only [List.length_append, Addressing.bytes, addressing_length, h1, h2, fcAddrLen]
  cases adr with
  | none =>
    cases adr' with
    | none =>
      simp only [addressingBytes, List.nil_append] at e
      rw [e]
    | some a =>
      exfalso
      simp only [Header.fc] at w'
      have := w _ w'.1
      have h2 := size a rest' w'.1 w'.2.1 w'.2.2
      simp only [addressingBytes, List.nil_append] at e
      rw [← e] at h2
      simp only at this
      omega
  | some a =>
    cases adr' with
    | none =>
      exfalso
      simp only [Header.fc] at w
      have := w' _ w.1
      have h2 := size a rest w.1 w.2.1 w.2.2
      simp only [addressingBytes, List.nil_append] at e
      rw [e] at h2
      simp only at this
      omega
    | some a' =>
      simp only [Header.fc] at w w'
      have hp := w.1.symm.trans w'.1
      simp only [Option.some.injEq, Pans.mk.injEq] at hp
      obtain ⟨dp, d, sp, s⟩ := a
      obtain ⟨dp', d', sp', s'⟩ := a'
      simp only [addressingBytes, Addressing.bytes, Spec.addressing, List.append_assoc] at e
      obtain ⟨e1, e⟩ := panBytes_inj hp.1 e
      obtain ⟨e2, e⟩ := addrBytes_inj (w.2.1.trans w'.2.1.symm) e
      obtain ⟨e3, e⟩ := panBytes_inj hp.2 e
      obtain ⟨e4, e5⟩ := addrBytes_inj (w.2.2.trans w'.2.2.symm) e
      simp only at e1 e2 e3 e4
      rw [e1, e2, e3, e4, e5]

/-! ## What becomes of a frame -/

/-- The broadcast address. -/
def everyone : Address := .short ⟨[0xff, 0xff], rfl⟩

/-- The device asks for an acknowledgement of this frame. -/
def AsksAck (cfg : Config) (f : FrameRepr) : Prop :=
  (f.frameControl.frameType = .data ∨ f.frameControl.frameType = .macCommand) ∧
    ∃ a, f.addressingFields = some a ∧
      (a.dstAddress ≠ some everyone ∧ cfg.ackUnicast = true ∨
        a.dstAddress = some everyone ∧ cfg.ackBroadcast = true)

/-- The frame a device transmits when given `f`: the acknowledgement request is added if `asks`, and
the PAN ids that are present and to be overwritten are those of the device. -/
def sentFrame (S : Device) (asks : Bool) (f : FrameRepr) : FrameRepr :=
  { f with
    frameControl := { f.frameControl with ackRequest := f.frameControl.ackRequest || asks }
    addressingFields := f.addressingFields.map fun a =>
      { a with
        dstPanId := overwritten S.config.overwriteDstPanId S.consts.panId a.dstPanId
        srcPanId := overwritten S.config.overwriteSrcPanId S.consts.panId a.srcPanId } }

/-- A device passes this frame on to its upper layer: it is not an acknowledgement, and it is for
this device, or the device passes on everything. -/
def Takes (R : Device) (f : FrameRepr) : Prop :=
  f.frameControl.frameType ≠ .ack ∧
    (R.config.ignoreNotForUs = false ∨
      match f.addressingFields with
      | none => R.consts.implicitBroadcast = true
      | some a => PanOk R.consts.panId a.dstPanId ∧
          ∃ d, a.dstAddress = some d ∧ AddrOk R.hardwareAddress d)

/-- What a device hands to its upper layer. -/
def deliveries (l : List RxEvent) : List FrameBuffer :=
  l.filterMap fun | .deliver b => some b | _ => none

/-- The header of a frame to be written. -/
def headerOf (o0 o1 : Byte) (f : FrameRepr) : Header where
  o0 := o0
  o1 := o1
  seq := f.sequenceNumber
  addressing := f.addressingFields.map fun a => ⟨a.dstPanId, a.dstAddress.getD .absent, a.srcPanId,
    a.srcAddress.getD .absent⟩
  rest := tailOctets f

theorem headerOf_bytes (o0 o1 : Byte) (f : FrameRepr) : (headerOf o0 o1 f).bytes =
    o0 :: o1 :: (f.sequenceNumber.toList ++ (addrOctets f ++ tailOctets f)) := by
  simp only [Header.bytes, headerOf, addrOctets]
  cases f.addressingFields with
  | none => simp [addressingBytes]
  | some a => simp [addressingBytes, Addressing.bytes]

theorem headerOf_wellFormed {f : FrameRepr} (hc : Coherent f (tailOctets f).length) {o0 o1 : Byte}
    (ho : decodeFc o0 o1 = f.frameControl) : (headerOf o0 o1 f).WellFormed := by
  refine ⟨?_, ?_⟩
  · simp only [Header.fc, headerOf, ho, hc.seq]
    cases f.sequenceNumber <;> rfl
  · simp only [Header.fc, headerOf, fcPans, fcAddrLen, ho]
    cases ha : f.addressingFields with
    | none => exact fun p hp => hc.none ha p hp
    | some a =>
      obtain ⟨h1, h2, h3⟩ := hc.addr a ha
      exact ⟨h3, by rw [mode_getD, h1], by rw [mode_getD, h2]⟩

theorem sentFrame_header (S : Device) (asks : Bool) (f : FrameRepr) (o0 o1 : Byte) :
    headerOf o0 o1 (sentFrame S asks f) = (headerOf o0 o1 f).overwrite S := by
  simp only [headerOf, sentFrame, Header.overwrite]
  cases f.addressingFields <;> rfl

theorem overwritten_isSome (on : Bool) (ours : BitVec 16) (p : Option (BitVec 16)) :
    (overwritten on ours p).isSome = p.isSome := by cases p <;> rfl

theorem sentFrame_coherent (S : Device) (asks : Bool) {f : FrameRepr} {n : Nat} (hc : Coherent f n) :
    Coherent (sentFrame S asks f) n where
  seq := hc.seq
  ie := hc.ie
  modes := hc.modes
  addr a ha := by
    simp only [sentFrame] at ha
    cases h : f.addressingFields with
    | none => rw [h] at ha; cases ha
    | some a' =>
      rw [h] at ha
      cases ha
      obtain ⟨h1, h2, h3⟩ := hc.addr a' h
      refine ⟨h1, h2, ?_⟩
      simp only [overwritten_isSome]
      exact h3
  none ha p hp := by
    refine hc.none ?_ p hp
    simp only [sentFrame] at ha
    cases h : f.addressingFields with
    | none => rfl
    | some a' => rw [h] at ha; cases ha
  clear := hc.clear

theorem headerOf_asks {f : FrameRepr} {o0 o1 : Byte} (ho : decodeFc o0 o1 = f.frameControl)
    (cfg : Config) : WantsAck cfg (headerOf o0 o1 f) ↔ AsksAck cfg f := by
  have e : ∀ d : Option Address, d.getD .absent = everyone ↔ d = some everyone := by
    intro d
    cases d with
    | none => simp [everyone]
    | some d => simp
  have ev : Address.short ⟨[0xff, 0xff], rfl⟩ = everyone := rfl
  simp only [WantsAck, AsksAck, Header.fc, headerOf, ho, NotBroadcast, Broadcast, ev]
  cases f.addressingFields with
  | none => simp
  | some a => simp [e]

theorem headerOf_takes {f : FrameRepr} {o0 o1 : Byte} (ho : decodeFc o0 o1 = f.frameControl)
    (R : Device) : PassedOn R (headerOf o0 o1 f) ↔ Takes R f := by
  have e : ∀ d : Option Address, AddrOk R.hardwareAddress (d.getD .absent) ↔
      ∃ x, d = some x ∧ AddrOk R.hardwareAddress x := by
    intro d
    cases d with
    | none => simp [AddrOk]
    | some d => simp
  simp only [PassedOn, Takes, Header.fc, headerOf, ho, ForUs]
  cases f.addressingFields with
  | none => exact ⟨fun h => ⟨h.2, h.1.symm⟩, fun h => ⟨h.2.symm, h.1⟩⟩
  | some a =>
    simp only [Option.map_some, e]
    exact ⟨fun h => ⟨h.2, h.1.symm⟩, fun h => ⟨h.2.symm, h.1⟩⟩

/-! ## Histories -/

theorem package_of {packages : List (List TxEvent)} (hr : ∀ r ∈ packages, ∃ p t, r = TxEvent.fetched p :: t ∧ fetches t = [])
    {l1 l2 l3 : List TxEvent} {p : FrameBuffer} (e : packages.flatten = l1 ++ .fetched p :: (l2 ++ l3))
    (h2 : fetches l2 = []) : ∃ r, (.fetched p :: (l2 ++ r)) ∈ packages := by
  have notin : ∀ {t : List TxEvent}, fetches t = [] → ∀ q, TxEvent.fetched q ∉ t := by
    intro t ht q hq
    have : q ∈ fetches t := List.mem_filterMap.2 ⟨_, hq, rfl⟩
    rw [ht] at this; cases this
  induction packages generalizing l1 with
  | nil => simp at e
  | cons r rs ih =>
    obtain ⟨q, t, rfl, ht⟩ := hr r (by simp)
    simp only [List.flatten_cons, List.cons_append] at e
    cases l1 with
    | nil =>
      simp only [List.nil_append, List.cons.injEq, TxEvent.fetched.injEq] at e
      obtain ⟨rfl, e⟩ := e
      rcases List.append_eq_append_iff.1 e with ⟨a, rfl, e2⟩ | ⟨a, rfl, e2⟩
      · cases a with
        | nil => exact ⟨[], by simp⟩
        | cons x a =>
          cases rs with
          | nil => simp at e2
          | cons r' rs =>
            obtain ⟨d, u, rfl, -⟩ := hr r' (by simp)
            simp only [List.flatten_cons, List.cons_append, List.cons.injEq] at e2
            exact absurd (by simp [← e2.1]) (notin h2 d)
      · exact ⟨a, by simp⟩
    | cons x l1 =>
      simp only [List.cons_append, List.cons.injEq] at e
      rcases List.append_eq_append_iff.1 e.2 with ⟨a, rfl, e2⟩ | ⟨a, rfl, e2⟩
      · obtain ⟨r, h⟩ := ih (fun r h => hr r (by simp [h])) e2
        exact ⟨r, by simp [h]⟩
      · cases a with
        | nil =>
          obtain ⟨r, h⟩ := ih (fun r h => hr r (by simp [h])) (l1 := []) (by simpa using e2.symm)
          exact ⟨r, by simp [h]⟩
        | cons y a =>
          simp only [List.cons_append, List.cons.injEq] at e2
          exact absurd (by simp [← e2.1]) (notin ht p)

/-- What a device did after it was given a package, and before it was given another, is (the
beginning of) what it does for this package. -/
theorem transmit_package {D : Device} {l l1 l2 l3 : List TxEvent} {p : FrameBuffer}
    (h : TransmitLog D l) (e : l = l1 ++ .fetched p :: (l2 ++ l3)) (h2 : fetches l2 = []) :
    ∃ r o, PackageLog D (.fetched p :: (l2 ++ r)) o := by
  obtain ⟨packages, last, hl, hp, hlast⟩ := h
  have head : ∀ r o, PackageLog D r o → ∃ p t, r = TxEvent.fetched p :: t ∧ fetches t = [] := by
    rintro r o ⟨p, b, seq, cs, l, o, hprep, hs⟩
    refine ⟨p, cs ++ l, rfl, ?_⟩
    rw [fetches_append, (Prepared.facts hprep).2.2.2.2.2.1, SendLog.no_fetch hs]; rfl
  rcases hlast with rfl | ⟨rest, o, hlast⟩
  · obtain ⟨r, hr⟩ := package_of (l3 := l3) (fun r h => head r _ (hp r h).choose_spec)
      (by rw [← e, hl]; simp) h2
    obtain ⟨o, ho⟩ := hp _ hr
    exact ⟨r, o, ho⟩
  · have hp' : ∀ r ∈ packages ++ [last ++ rest], ∃ o, PackageLog D r o := by
      intro r hr
      rcases List.mem_append.1 hr with hr | hr
      · exact hp r hr
      · rw [List.mem_singleton.1 hr]; exact ⟨o, hlast⟩
    obtain ⟨r, hr⟩ := package_of (packages := packages ++ [last ++ rest]) (l1 := l1) (p := p) (l3 := l3 ++ rest)
      (fun r h => head r _ (hp' r h).choose_spec)
      (by
        have : packages.flatten ++ last = l1 ++ .fetched p :: (l2 ++ l3) := hl.symm.trans e
        rw [List.flatten_append, List.flatten_singleton, ← List.append_assoc, this]; simp) h2
    obtain ⟨o, ho⟩ := hp' _ hr
    exact ⟨r, o, ho⟩

/-- The reports about a frame that cannot be read. -/
def invalids (l : List TxEvent) : List DriverError :=
  (reports l).filter fun e => e = .invalidDeviceStructure || e = .invalidIeeeStructure

theorem invalids_append (l m : List TxEvent) : invalids (l ++ m) = invalids l ++ invalids m := by
  rw [invalids, reports_append, List.filter_append]; rfl

theorem CcaLog.no_invalid {c : Consts} {ch : PhyChannel} {b : Arr 128} {i : Nat} {held : Bool}
    {l : List TxEvent} {res : Bool} (h : CcaLog c ch b i held l res) : invalids l = [] := by
  induction h with
  | @sent i held hi => cases held <;> rfl
  | @failed held => cases held <;> rfl
  | @again i held r l l' res hi hl _ ih =>
    have e : invalids l = [] := by rcases interleave_21 hl with rfl | rfl | rfl <;> rfl
    rw [invalids_append, invalids_append, ih, e]
    cases held <;> rfl

theorem AckLog.no_invalid {c : Consts} {F : RadioFormat} {ch : PhyChannel} {s : Byte}
    {l : List TxEvent} {a : Bool} (h : AckLog c F ch s l a) : invalids l = [] := by
  rw [invalids, (AckLog.facts h).2.2.1]; rfl

theorem SendLog.no_invalid {D : Device} {b : Arr 128} {seq : Option Byte} {i : Nat}
    {l : List TxEvent} {o : TxOutcome} (h : SendLog D b seq i l o) : invalids l = [] := by
  induction h with
  | ccaFailed hl => rw [invalids_append, CcaLog.no_invalid hl]; rfl
  | sent _ hl => rw [invalids_append, CcaLog.no_invalid hl]; rfl
  | acked _ hl hl' =>
    rw [invalids_append, invalids_append, CcaLog.no_invalid hl, AckLog.no_invalid hl']; rfl
  | ackFailed _ hl hl' =>
    rw [invalids_append, invalids_append, CcaLog.no_invalid hl, AckLog.no_invalid hl']; rfl
  | retry _ hl hl' _ _ ih =>
    rw [invalids_append, invalids_append, invalids_append, CcaLog.no_invalid hl,
      AckLog.no_invalid hl', ih]
    rfl

/-! ## Sent -/

/-- What is transmitted for a coherent frame. -/
theorem sent_of {S : Device} (hS : S.format.Lawful) {f : FrameRepr} (hc : Coherent f (tailOctets f).length)
    (hw : Writable f.frameControl) (hv : f.frameControl.frameVersion ≠ .unknown)
    {o0 o1 : Byte} (ho : decodeFc o0 o1 = f.frameControl) (hlen : (headerOf o0 o1 f).bytes.length ≤ 127)
    {p b : Arr 128} (hp : Carries S.format p (headerOf o0 o1 f).bytes) {seq : Option Byte}
    {cs : List TxEvent} (hprep : Prepared S p b seq cs) :
    ∃ (asks : Bool) (q0 q1 : Byte), (asks = true ↔ AsksAck S.config f) ∧ cs = [] ∧
      seq = (if asks then f.sequenceNumber else none) ∧
      decodeFc q0 q1 = (sentFrame S asks f).frameControl ∧
      (headerOf q0 q1 (sentFrame S asks f)).bytes.length = (headerOf o0 o1 f).bytes.length ∧
      Carries S.format b (headerOf q0 q1 (sentFrame S asks f)).bytes := by
  have hwf := headerOf_wellFormed hc ho
  have hacc : Acceptable (headerOf o0 o1 f).bytes := by
    rw [headerOf_bytes] at hlen ⊢
    exact emitted_acceptable hc hw hv ho _ hlen
  obtain ⟨n, hn, hb⟩ := hp
  cases hprep with
  | noDeviceFrame h => rw [hn] at h; cases h
  | noIeeeFrame n' h hna =>
    rw [hn] at h; cases h
    exact absurd (hb ▸ hacc) hna
  | frame h n' q0 q1 want hf hacc' hn' hb' hwant hd hbit hbuf =>
    rw [hn] at hn'; cases hn'
    have e : h = headerOf o0 o1 f := header_unique hf hwf (hb'.symm.trans hb)
    subst e
    have hfc : decodeFc q0 q1 = (sentFrame S want f).frameControl := by
      rw [hd]; simp only [Header.fc, headerOf, ho, sentFrame]
    refine ⟨want, q0, q1, hwant.trans (headerOf_asks ho _), rfl, rfl, hfc, ?_⟩
    have eb : (({ headerOf o0 o1 f with o0 := q0, o1 := q1 } : Header).overwrite S) =
        headerOf q0 q1 (sentFrame S want f) := by rw [sentFrame_header]; rfl
    rw [eb] at hbuf
    have hsame : (headerOf q0 q1 (sentFrame S want f)).bytes.length =
        (headerOf o0 o1 f).bytes.length := by
      rw [sentFrame_header]
      simp only [Header.bytes, Header.overwrite, headerOf, List.length_append, List.length_cons]
      cases f.addressingFields with
      | none => rfl
      | some a => simp [addressingBytes, Addressing.bytes, addressing_length, overwritten_isSome]
    have hl : (headerOf q0 q1 (sentFrame S want f)).bytes.length = n := by
      have e := congrArg List.length hb
      have hin := hS.frame_inside _ _ hn
      rw [RadioFormat.data, List.length_take, List.length_drop] at e
      omega
    refine ⟨hsame, n, ?_, ?_⟩
    · rw [hbuf]; exact hS.frame_stable _ _ _ hn hl
    · rw [hbuf]; exact data_putData _ _ _ _ (hS.frame_inside _ _ hn) hl

/-! ## Received -/

/-- What becomes of a received frame. -/
theorem received_of {R : Device} (hR : Sane R) {H : Header} (hw : H.WellFormed)
    (hacc : Acceptable H.bytes) {rb : Arr 128} (hrb : Carries R.format rb H.bytes)
    {t : List (Ev CallAns)} {o : Fin Empty} (he : Exec (runDevice R) t o)
    {l1 l2 l3 : List RxEvent} {rb' : Arr 128}
    (ht : t.filterMap rxEvent = l1 ++ .got rb :: (l2 ++ .got rb' :: l3)) (h2 : NoGot l2) :
    (PassedOn R H → deliveries l2 = [⟨rb, true⟩]) ∧ (¬ PassedOn R H → deliveries l2 = []) := by
  obtain ⟨k, hk, hkb⟩ := hrb
  have holds : Holds R.format rb.1 H := ⟨hw, hacc, k, hk, hkb⟩
  have uniq : ∀ h, Holds R.format rb.1 h → h = H := by
    rintro h ⟨w, -, n, hn, hb⟩
    rw [hk] at hn; cases hn
    exact header_unique w hw (hb.symm.trans hkb)
  have hround : ReceivedOne R (.got rb :: l2) := by
    obtain ⟨rounds, last, e, hr, hl⟩ := C44_device R hR he
    refine hr _ (round_between (fun r h => receivedOne_head (hr r h)) ?_ (e.symm.trans ht) h2)
    rcases hl with rfl | ⟨rest, hl⟩
    · exact .inl rfl
    · cases last with
      | nil => exact .inl rfl
      | cons x last =>
        obtain ⟨c, u, e1, hu⟩ := receivedOne_head hl
        simp only [List.cons_append, List.cons.injEq] at e1
        refine .inr ⟨c, last, by rw [e1.1], ?_⟩
        rw [← e1.2] at hu
        exact (noGot_append.1 hu).1
  generalize hrr : RxEvent.got rb :: l2 = r at hround
  cases hround with
  | dropped b' hno =>
    cases hrr
    exact ⟨fun h => absurd h (hno H holds), fun _ => rfl⟩
  | delivered b' h hh hps hna =>
    cases hrr
    cases uniq h hh
    exact ⟨fun _ => rfl, fun h => absurd hps h⟩
  | acknowledged b' h s' a l' hh hps ha hs' hca hi =>
    cases hrr
    cases uniq h hh
    refine ⟨fun _ => ?_, fun h => absurd hps h⟩
    rcases interleave_21 hi with rfl | rfl | rfl <;> rfl

/-! ## From the builder to the other side -/

/-- **C69**.  Take any frame the builder gives, written by `emit`, no longer than a frame may be, and
put into the buffer of a package by the upper layer of a device `S`.  Then in every execution of `S`,
for every buffer `b` that `S` transmits for this package: `b` carries octets `m`, which
`FrameRepr::parse` reads as the frame the user built, except for the acknowledgement request and the
PAN ids `S` is configured to overwrite; nothing is reported as invalid; and in every execution of a
device `R` that receives a buffer with `m`, `R` hands exactly this buffer to its upper layer, once,
before it receives another, if the frame is for it, and nothing if not.  Missing: the histories
missing in `C29_roundtrip_partial`. -/
theorem C69_end_to_end_partial (s : Start) (cs : List Spec.Call) (f : FrameRepr)
    (h : build s cs = .ok f) (ha : NoAbsent cs)
    (hi : IsImmAck s cs → lastOf Call.dst? cs = none ∧ lastOf Call.src? cs = none)
    (he : wantsElements cs = true →
      ElementsOk ⟨wantedHeader cs, wantedElements cs⟩ ∧ wantedPayload s cs = none)
    {n : Nat} {d : Bytes} (hn : f.bufferLen = .ok n) (hd : FrameRepr.emit f (List.replicate n 0) = .ok d)
    (h127 : n ≤ 127) (S : Device) (hS : Sane S) {p : FrameBuffer} (hp : Carries S.format p.buffer d) :
    ∃ asks : Bool, (asks = true ↔ AsksAck S.config f) ∧
      ∀ {t : List (Ev CallAns)} {o : Fin Empty}, Exec (runDevice S) t o →
      ∀ {l1 l2 l3 : List TxEvent}, t.filterMap txEvent = l1 ++ .fetched p :: (l2 ++ l3) →
      fetches l2 = [] →
      invalids l2 = [] ∧
      ∀ b cfg, (b, cfg) ∈ attempts l2 → ∃ m, Carries S.format b m ∧
        FrameRepr.parse m = .ok (rereadFrame (sentFrame S asks f)) ∧
        ∀ (R : Device), Sane R → ∀ {rb : Arr 128}, Carries R.format rb m →
        ∀ {t : List (Ev CallAns)} {o : Fin Empty}, Exec (runDevice R) t o →
        ∀ {l1 l2 l3 : List RxEvent} {rb' : Arr 128},
        t.filterMap rxEvent = l1 ++ .got rb :: (l2 ++ .got rb' :: l3) → NoGot l2 →
        (Takes R (sentFrame S asks f) → deliveries l2 = [⟨rb, true⟩]) ∧
        (¬ Takes R (sentFrame S asks f) → deliveries l2 = []) := by
  obtain ⟨hc, hq⟩ := C28_consistent_partial s cs f h ha hi
  obtain ⟨hw, hv⟩ := built hc hq
  replace hc := hc.coherent (tailOctets f).length
  have ht : TailOk f := by
    intro ie e
    rw [hq.ie] at e
    by_cases hwe : wantsElements cs = true
    · rw [if_pos hwe] at e
      cases e
      exact ⟨(he hwe).1, by rw [hq.payload]; exact (he hwe).2⟩
    · rw [if_neg hwe] at e; cases e
  obtain ⟨o0, o1, ho, -, hd'⟩ := emit_frame hc ht hw _ hn
  rw [hd'] at hd
  cases hd
  have hl := frame_bufferLen hc ht
  rw [hn] at hl
  simp only [ok.injEq] at hl
  have hlen : (headerOf o0 o1 f).bytes.length ≤ 127 := by
    rw [headerOf_bytes]
    simp only [List.length_cons, List.length_append]
    omega
  rw [← headerOf_bytes] at hp
  classical
  refine ⟨decide (AsksAck S.config f), by simp, ?_⟩
  intro t o hex l1 l2 l3 hlog hfetch
  obtain ⟨r, out, hpk⟩ := transmit_package (C48_device S hS hex) hlog hfetch
  generalize hrr : TxEvent.fetched p :: (l2 ++ r) = full at hpk
  obtain ⟨p', b, seq, complaints, l, out, hprep, hsend⟩ := hpk
  simp only [List.cons_append, List.cons.injEq, TxEvent.fetched.injEq] at hrr
  obtain ⟨rfl, hrr⟩ := hrr
  obtain ⟨asks, q0, q1, hasks, rfl, -, hfc, hsame, hcar⟩ := sent_of hS.format hc hw hv ho hlen hp hprep
  have ea : decide (AsksAck S.config f) = asks := by
    cases asks with
    | true => simpa using hasks
    | false => simpa using hasks
  rw [ea]
  rw [List.nil_append] at hrr
  obtain ⟨k, -, hatt, -⟩ := SendLog.facts hsend
  have hsc := sentFrame_coherent S asks hc
  have hwf : (headerOf q0 q1 (sentFrame S asks f)).WellFormed := headerOf_wellFormed hsc hfc
  have hacc : Acceptable (headerOf q0 q1 (sentFrame S asks f)).bytes := by
    rw [headerOf_bytes]
    refine emitted_acceptable hsc hw hv hfc _ ?_
    rw [← headerOf_bytes, hsame]
    exact hlen
  have hinv := SendLog.no_invalid hsend
  rw [← hrr, invalids_append] at hinv
  refine ⟨(List.append_eq_nil_iff.1 hinv).1, ?_⟩
  intro b' cfg hb'
  have : (b', cfg) ∈ attempts l := by
    rw [← hrr, attempts_append]
    exact List.mem_append_left _ hb'
  have e := hatt _ this
  simp only [Prod.mk.injEq] at e
  rw [e.1]
  refine ⟨_, hcar, ?_, ?_⟩
  · rw [headerOf_bytes]
    exact parse_frame hsc ht hfc
  · intro R hR rb hrb t o hexR l1 l2 l3 rb' hlogR hno
    have := received_of hR hwf hacc hrb hexR hlogR hno
    rwa [headerOf_takes hfc] at this

/-! ## An example -/

/-- A history of the builder. -/
def exampleCalls : List Spec.Call := [.sequenceNumber 9, .dstPanId 0xffff, .srcPanId 0xabcd,
  .dstAddress (.short ⟨[7, 8], rfl⟩), .srcAddress (.short ⟨[1, 2], rfl⟩)]

/-- The frame it gives. -/
def builtExample : FrameRepr :=
  ⟨⟨.data, false, false, false, false, false, false, .short, .short, .v2006⟩, some 9,
    some ⟨some 0xffff, some (.short ⟨[7, 8], rfl⟩), some 0xabcd, some (.short ⟨[1, 2], rfl⟩)⟩, none,
    some [1, 2, 3]⟩

/-- The octets `emit` writes. -/
def exampleOctets : Bytes := [0x01, 0x98, 9, 0xff, 0xff, 8, 7, 0xcd, 0xab, 2, 1, 1, 2, 3]

/-- The octets transmitted: with the request, and the PAN id of the device as source PAN id. -/
def exampleSent : Bytes := [0x21, 0x98, 9, 0xff, 0xff, 8, 7, 0xff, 0xff, 2, 1, 1, 2, 3]

set_option maxRecDepth 40000 in
/-- Non-vacuity for C69: the frame is built, written and given to a device, which transmits it; a
device with the address 7, 8 receives it, delivers it, and receives something else. -/
example : build (.data [1, 2, 3]) exampleCalls = .ok builtExample ∧ NoAbsent exampleCalls ∧
    ¬ IsImmAck (.data [1, 2, 3]) exampleCalls ∧ wantsElements exampleCalls = false ∧
    builtExample.bufferLen = .ok 14 ∧
    FrameRepr.emit builtExample (List.replicate 14 0) = .ok exampleOctets ∧
    Carries exampleDevice.format (padded ([14] ++ exampleOctets)) exampleOctets ∧
    AsksAck exampleDevice.config builtExample ∧
    Takes exampleDevice (sentFrame exampleDevice true builtExample) ∧
    Carries exampleDevice.format (padded ([14] ++ exampleSent)) exampleSent ∧
    (∃ t, Exec (runDevice exampleDevice) t .pending ∧
      t.filterMap txEvent = [] ++ .fetched ⟨padded ([14] ++ exampleOctets), false⟩ ::
        ([.locked, .attempt (padded ([14] ++ exampleSent)) ⟨.c26, true⟩, .result true,
          .listen ⟨.c26⟩, .heard true (padded [3, 2, 0x10, 9]), .unlocked] ++ [])) ∧
    ∃ t, Exec (runDevice exampleDevice) t .pending ∧
      t.filterMap rxEvent = [] ++ .got (padded ([14] ++ exampleSent)) :: ([.pause 500,
        .send (padded [3, 2, 0x10, 9]) ⟨.c26, false⟩,
        .deliver ⟨padded ([14] ++ exampleSent), true⟩] ++ .got (padded [200]) :: []) := by
  refine ⟨rfl, by decide, by decide, rfl, rfl, by decide +kernel, ⟨14, rfl, rfl⟩,
    ⟨Or.inl rfl, _, rfl, Or.inl ⟨by decide, rfl⟩⟩,
    ⟨by decide, Or.inr ⟨Or.inr rfl, _, rfl, Or.inr (Or.inl rfl)⟩⟩, ⟨14, rfl, rfl⟩, ?_, ?_⟩
  · obtain ⟨t, h1, h2⟩ := poll_outcome scripted 5 (runDevice exampleDevice)
      ⟨some ⟨padded ([14] ++ exampleOctets), false⟩, none, some (padded [3, 2, 0x10, 9]), true⟩ []
    refine ⟨t, outcome_pending h2, ?_⟩
    rw [List.nil_append] at h1
    rw [← h1]
    rfl
  · obtain ⟨t, h1, h2⟩ := poll_outcome hearing 9 (runDevice exampleDevice)
      ([padded ([14] ++ exampleSent), padded [200]], ⟨none, none, none, true⟩) []
    refine ⟨t, outcome_pending h2, ?_⟩
    rw [List.nil_append] at h1
    rw [← h1]
    rfl

end Dot15d4.Props
