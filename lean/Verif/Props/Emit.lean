import Verif.Lemmas.Emit
import Verif.Props.Repr
import Verif.Props.FrameControl

/-! # C29: emitting a frame and reading it back -/

namespace Dot15d4.Props
open Out Spec

/-- The octets of the information elements and the payload. -/
def tailOctets (f : FrameRepr) : Bytes :=
  (match f.informationElements with
   | none => []
   | some ie => encodeElements ie false) ++ f.payload.getD []

/-- The elements of the frame, if any, have an encoding, and no payload follows them. -/
def TailOk (f : FrameRepr) : Prop :=
  ∀ ie, f.informationElements = some ie → ElementsOk ie ∧ f.payload = none

/-- The length `buffer_len` reports is that of the parts. -/
theorem frame_bufferLen' {f : FrameRepr} {m : Nat} (hc : Coherent f m) :
    f.bufferLen = .ok (2 + f.sequenceNumber.toList.length + (addrOctets f).length +
      (match f.informationElements with
       | some ie => ie.bufferLen f.payload.isSome
       | none => 0) +
      (match f.payload with
       | some p => p.length
       | none => 0)) := by
  have ha : mapOpt (fun af => AddressingFieldsRepr.bufferLen af f.frameControl) f.addressingFields =
      .ok (f.addressingFields.map fun _ => (addrOctets f).length) := by
    cases ha : f.addressingFields with
    | none => rfl
    | some a =>
      obtain ⟨h1, h2, -⟩ := hc.addr a ha
      simp only [mapOpt, AddressingFieldsRepr.bufferLen, h1, h2, modeLen_eq (modeOf_ne _), bind_ok,
        Option.map_some, addrOctets, ha, addressing_length, mode_getD]
  have hg : ((f.addressingFields.map fun _ => (addrOctets f).length).getD 0) =
      (addrOctets f).length := by
    cases ha : f.addressingFields with
    | none => simp [addrOctets, ha]
    | some a => rfl
  rw [FrameRepr.bufferLen, ha]
  simp only [bind_ok, hg, ok.injEq]
  have hs : (if f.sequenceNumber.isSome then 1 else 0) = f.sequenceNumber.toList.length := by
    cases f.sequenceNumber <;> rfl
  rw [hs]
  cases f.informationElements <;> cases f.payload <;> rfl

theorem frame_bufferLen {f : FrameRepr} {m : Nat} (hc : Coherent f m) (ht : TailOk f) :
    f.bufferLen = .ok (2 + f.sequenceNumber.toList.length + (addrOctets f).length +
      (tailOctets f).length) := by
  rw [frame_bufferLen' hc]
  simp only [tailOctets, ok.injEq]
  cases hi : f.informationElements with
  | none => cases f.payload <;> simp
  | some ie =>
    obtain ⟨h1, h2⟩ := ht ie hi
    obtain ⟨-, h4⟩ := emit_elements ie false h1 (.inl rfl) (List.replicate (ie.bufferLen false) 0)
      (by simp)
    simp [h2, h4]

/-- What the reader makes of the emitted frame: absent addresses are reported as `Absent`, an empty
payload is none, the elements gain the termination. -/
def rereadFrame (f : FrameRepr) : FrameRepr where
  frameControl := f.frameControl
  sequenceNumber := f.sequenceNumber
  addressingFields := rereadAddr f
  informationElements := f.informationElements.map fun ie =>
    if ie.payload = [] then ie
    else { ie with header := (ie.header ++ [HeaderIeRepr.headerTermination1]).take 16 }
  payload := if f.payload = some [] then none else f.payload

theorem emit_head {f : FrameRepr} {k : Nat} (hc : Coherent f k)
    (hw : Writable f.frameControl) (m : Nat) : ∃ o0 o1,
    decodeFc o0 o1 = f.frameControl ∧ fcBit o0 o1 7 = false ∧
    FrameRepr.emit f (List.replicate
      (2 + f.sequenceNumber.toList.length + (addrOctets f).length + m) 0) = (do
      let b ← FrameRepr.ifSome
        (fun b ie => DataFrame.setInformationElements b ie f.payload.isSome) f.informationElements
        (o0 :: o1 :: (f.sequenceNumber.toList ++ (addrOctets f ++ List.replicate m 0)))
      FrameRepr.ifSome DataFrame.setPayload f.payload b) := by
  obtain ⟨o0, o1, h1, -, ho, h7, -⟩ := C03_emit_parse f.frameControl hw []
  refine ⟨o0, o1, ho, h7, ?_⟩
  have hb : List.replicate (2 + f.sequenceNumber.toList.length + (addrOctets f).length + m)
      (0 : Byte) = 0 :: 0 :: (f.sequenceNumber.toList.map (fun _ => 0) ++
      (List.replicate (addrOctets f).length 0 ++ List.replicate m 0)) := by
    have e : f.sequenceNumber.toList.map (fun _ => (0 : Byte)) =
        List.replicate f.sequenceNumber.toList.length 0 := by
      cases f.sequenceNumber <;> rfl
    rw [e, List.replicate_append_replicate, List.replicate_append_replicate]
    rw [show 2 + f.sequenceNumber.toList.length + (addrOctets f).length + m =
      (f.sequenceNumber.toList.length + ((addrOctets f).length + m)) + 1 + 1 by omega]
    rfl
  have hfc : ∀ l : Bytes, DataFrame.setFrameControl (0 :: 0 :: l) f.frameControl =
      .ok (o0 :: o1 :: l) := by
    intro l
    simp only [DataFrame.setFrameControl, modifyTo]
    rw [sliceTo_ok (by simp)]
    simp only [bind_ok, List.take_succ_cons, List.take_zero, List.drop_succ_cons, List.drop_zero, h1]
    rfl
  rw [FrameRepr.emit, hb, hfc, bind_ok, emit_seq hc ho, bind_ok,
    emit_addr hc ho _ _ (List.length_replicate), bind_ok]

theorem emit_frame {f : FrameRepr} (hc : Coherent f (tailOctets f).length) (ht : TailOk f)
    (hw : Writable f.frameControl) (n : Nat) (hn : f.bufferLen = .ok n) : ∃ o0 o1,
    decodeFc o0 o1 = f.frameControl ∧ fcBit o0 o1 7 = false ∧
    FrameRepr.emit f (List.replicate n 0) =
      .ok (o0 :: o1 :: (f.sequenceNumber.toList ++ (addrOctets f ++ tailOctets f))) := by
  obtain ⟨o0, o1, ho, h7, hem⟩ := emit_head hc hw (tailOctets f).length
  refine ⟨o0, o1, ho, h7, ?_⟩
  rw [frame_bufferLen hc ht] at hn
  simp only [ok.injEq] at hn
  rw [← hn, hem]
  have e2 : ∀ q r : Bytes, o0 :: o1 :: (f.sequenceNumber.toList ++ (q ++ r)) =
      (o0 :: o1 :: (f.sequenceNumber.toList ++ q)) ++ r := by simp
  have e3 : 2 + f.sequenceNumber.toList.length + (addrOctets f).length =
      (o0 :: o1 :: (f.sequenceNumber.toList ++ addrOctets f)).length := by
    simp; omega
  cases hi : f.informationElements with
  | none =>
    have hie : (decodeFc o0 o1).iePresent = false := by rw [ho, hc.ie, hi]; rfl
    have hsec : (decodeFc o0 o1).securityEnabled = false := by rw [ho]; exact hc.clear
    simp only [FrameRepr.ifSome, bind_ok]
    cases hp : f.payload with
    | none => simp [tailOctets, hi, hp]
    | some p =>
      obtain ⟨af, -, -, g⟩ := read_addr hc ho (List.replicate (tailOctets f).length 0)
        (List.length_replicate)
      simp only [DataFrame.setPayload, df_frameControl, bind_ok, g, fc_security, hsec, fc_ie, hie,
        Bool.false_eq_true, if_false]
      have et : tailOctets f = p := by simp [tailOctets, hi, hp]
      have hcp : copyFromSlice (List.replicate (tailOctets f).length 0) p = .ok p := by
        rw [et, copyFromSlice, if_pos (by simp)]
      rw [e2, e2, e3, modifyFrom_append _ _ p (fun s => copyFromSlice s p) hcp, et]
  | some ie =>
    obtain ⟨k1, k2⟩ := ht ie hi
    have et : tailOctets f = encodeElements ie false := by simp [tailOctets, hi, k2]
    obtain ⟨af, -, -, g⟩ := read_addr hc ho (List.replicate (tailOctets f).length 0)
      (List.length_replicate)
    obtain ⟨h5, h6⟩ := emit_elements ie false k1 (.inl rfl)
      (List.replicate (tailOctets f).length 0) (by
        obtain ⟨-, h6⟩ := emit_elements ie false k1 (.inl rfl)
          (List.replicate (ie.bufferLen false) 0) (by simp)
        rw [et, h6]; simp)
    simp only [FrameRepr.ifSome, DataFrame.setInformationElements, g, bind_ok, k2, Option.isSome]
    rw [e2, e2, e3, modifyFrom_append _ _ _ _ h5, ← h6, List.drop_of_length_le (by rw [et]; simp),
      et, List.append_nil]
    rfl

/-- Reading back the octets of a consistent frame. -/
theorem parse_frame {f : FrameRepr} (hc : Coherent f (tailOctets f).length) (ht : TailOk f) {o0 o1 : Byte}
    (ho : decodeFc o0 o1 = f.frameControl) :
    FrameRepr.parse (o0 :: o1 :: (f.sequenceNumber.toList ++ (addrOctets f ++ tailOctets f))) =
      .ok (rereadFrame f) := by
  obtain ⟨af, g1, g2, g3⟩ := read_addr hc ho (tailOctets f) rfl
  have hsec : (decodeFc o0 o1).securityEnabled = false := by rw [ho]; exact hc.clear
  have hseq : DataFrame.sequenceNumber
      (o0 :: o1 :: (f.sequenceNumber.toList ++ (addrOctets f ++ tailOctets f))) =
      .ok f.sequenceNumber := by
    simp only [DataFrame.sequenceNumber, df_frameControl, bind_ok, fc_sup, ho, hc.seq]
    cases f.sequenceNumber with
    | none => rfl
    | some x => simp [idx]
  have hfc : FrameControlRepr.parse [o0, o1] = .ok f.frameControl := by
    rw [FrameControlRepr.parse_cons, wRepr_eq_spec, ho]
  have e2 : ∀ q r : Bytes, o0 :: o1 :: (f.sequenceNumber.toList ++ (q ++ r)) =
      (o0 :: o1 :: (f.sequenceNumber.toList ++ q)) ++ r := by simp
  have e3 : 2 + f.sequenceNumber.toList.length + (addrOctets f).length =
      (o0 :: o1 :: (f.sequenceNumber.toList ++ addrOctets f)).length := by
    simp; omega
  have hsl : sliceFrom (o0 :: o1 :: (f.sequenceNumber.toList ++ (addrOctets f ++ tailOctets f)))
      (2 + f.sequenceNumber.toList.length + (addrOctets f).length) = .ok (tailOctets f) := by
    rw [e2, e3, sliceFrom_ok (by rw [List.length_append]; omega), List.drop_left]
  have hlen : (o0 :: o1 :: (f.sequenceNumber.toList ++ (addrOctets f ++ tailOctets f))).length =
      2 + f.sequenceNumber.toList.length + (addrOctets f).length + (tailOctets f).length := by
    rw [e2, e3, List.length_append]
  simp only [FrameRepr.parse, df_frameControl, bind_ok, hfc, g1, g2, hseq]
  cases hi : f.informationElements with
  | none =>
    have hie : (decodeFc o0 o1).iePresent = false := by rw [ho, hc.ie, hi]; rfl
    have h1 : DataFrame.informationElements
        (o0 :: o1 :: (f.sequenceNumber.toList ++ (addrOctets f ++ tailOctets f))) = .ok none := by
      simp only [DataFrame.informationElements, df_frameControl, bind_ok, fc_ie, hie,
        Bool.false_eq_true, if_false]
    have h2 : DataFrame.payloadOffset
        (o0 :: o1 :: (f.sequenceNumber.toList ++ (addrOctets f ++ tailOctets f))) =
        .ok (2 + f.sequenceNumber.toList.length + (addrOctets f).length) := by
      simp only [DataFrame.payloadOffset, df_frameControl, bind_ok, fc_ie, hie, g3, fc_security,
        hsec, Bool.false_eq_true, if_false]
    have et : tailOctets f = f.payload.getD [] := by simp [tailOctets, hi]
    have h3 : DataFrame.payload
        (o0 :: o1 :: (f.sequenceNumber.toList ++ (addrOctets f ++ tailOctets f))) =
        .ok (if f.payload = some [] then none else f.payload) := by
      simp only [DataFrame.payload, h2, bind_ok, hlen]
      rw [hsl, et]
      cases f.payload with
      | none => simp
      | some p =>
        cases p with
        | nil => simp
        | cons x p => simp
    simp only [h1, h3, bind_ok, mapOpt, rereadFrame, hi, Option.map_none]
  | some ie =>
    obtain ⟨k1, k2⟩ := ht ie hi
    have et : tailOctets f = encodeElements ie false := by simp [tailOctets, hi, k2]
    obtain ⟨p1, p2, p3⟩ := parse_elements ie k1
    rw [← et] at p1 p2 p3
    have hie : (decodeFc o0 o1).iePresent = true := by rw [ho, hc.ie, hi]; rfl
    have h1 : DataFrame.informationElements
        (o0 :: o1 :: (f.sequenceNumber.toList ++ (addrOctets f ++ tailOctets f))) =
        .ok (some (tailOctets f)) := by
      simp only [DataFrame.informationElements, df_frameControl, bind_ok, fc_ie, hie, g3, if_true,
        hsl, p1, toOption]
    have h2 : DataFrame.payloadOffset
        (o0 :: o1 :: (f.sequenceNumber.toList ++ (addrOctets f ++ tailOctets f))) =
        .ok (2 + f.sequenceNumber.toList.length + (addrOctets f).length + (tailOctets f).length) := by
      simp only [DataFrame.payloadOffset, df_frameControl, bind_ok, fc_ie, hie, g3, fc_security,
        hsec, Bool.false_eq_true, if_false, if_true, h1, p3]
    have h3 : DataFrame.payload
        (o0 :: o1 :: (f.sequenceNumber.toList ++ (addrOctets f ++ tailOctets f))) = .ok none := by
      simp only [DataFrame.payload, h2, bind_ok, hlen]
      rw [if_pos (Nat.le_refl _)]
    simp only [h1, h3, bind_ok, mapOpt, p2, rereadFrame, hi, Option.map_some, k2]
    rfl

theorem emitted_acceptable {f : FrameRepr} {m : Nat} (hc : Coherent f m) (hw : Writable f.frameControl)
    (hv : f.frameControl.frameVersion ≠ .unknown) {o0 o1 : Byte}
    (ho : decodeFc o0 o1 = f.frameControl) (r : Bytes)
    (h : (o0 :: o1 :: (f.sequenceNumber.toList ++ r)).length ≤ 127) :
    Acceptable (o0 :: o1 :: (f.sequenceNumber.toList ++ r)) := by
  refine ⟨by simp, h, o0, o1, _, rfl, ?_, ?_, ?_, ?_, ?_, ?_⟩
  · rw [ho, hc.seq]
    cases f.sequenceNumber <;> simp
  · rw [ho]; exact hc.clear
  · rw [ho]; exact hw.1
  · rw [ho]; exact hv
  · rw [ho]; exact hw.2.1
  · rw [ho]; exact hw.2.2

theorem built {s : Start} {cs : List Call} {f : FrameRepr} (hc : Consistent f)
    (ha : AsAsked s cs f) : Writable f.frameControl ∧ f.frameControl.frameVersion ≠ .unknown := by
  refine ⟨⟨?_, ?_, ?_⟩, ?_⟩
  · rw [ha.type]; cases s <;> simp [Start.type]
  · rw [hc.dst]; exact modeOf_ne _
  · rw [hc.src]; exact modeOf_ne _
  · rw [ha.version]; unfold wantedVersion; split
    · simp
    · cases s <;> simp

/-- The full claim of C29. -/
def C29_statement : Prop := ∀ (s : Start) (cs : List Call) (f : FrameRepr) (n : Nat),
  build s cs = .ok f → NoAbsent cs → wantsElements cs = false → f.bufferLen = .ok n → n ≤ 127 →
  ∃ d, FrameRepr.emit f (List.replicate n 0) = .ok d ∧ d.length = n ∧ DataFrame.new d = .ok d ∧
    FrameRepr.parse d = .ok (rereadFrame f)

/-- **C29**.  For every builder history, emitting the finished frame into a zeroed buffer of
`buffer_len()` octets fills it exactly; if it is no longer than a frame may be, `DataFrame::new`
accepts it, and `FrameRepr::parse` gives the same frame back (missing addresses as `Absent`, an
empty payload as none, elements with their termination).  This includes frames with information
elements, if they have encodings and no payload follows.  Missing: immediate acknowledgments for
which an address was given (`C29_false`), and elements followed by a payload
(`C29_elements_payload_panics`). -/
theorem C29_roundtrip_partial (s : Start) (cs : List Call) (f : FrameRepr)
    (h : build s cs = .ok f) (ha : NoAbsent cs)
    (hi : IsImmAck s cs → lastOf Call.dst? cs = none ∧ lastOf Call.src? cs = none)
    (he : wantsElements cs = true →
      ElementsOk ⟨wantedHeader cs, wantedElements cs⟩ ∧ wantedPayload s cs = none) :
    ∃ n d, f.bufferLen = .ok n ∧ FrameRepr.emit f (List.replicate n 0) = .ok d ∧ d.length = n ∧
      (n ≤ 127 → DataFrame.new d = .ok d) ∧ FrameRepr.parse d = .ok (rereadFrame f) := by
  obtain ⟨hc, hq⟩ := C28_consistent_partial s cs f h ha hi
  obtain ⟨hw, hv⟩ := built hc hq
  replace hc := hc.coherent (tailOctets f).length
  have ht : TailOk f := by
    intro ie e
    rw [hq.ie] at e
    by_cases hwe : wantsElements cs = true
    · rw [if_pos hwe] at e
      cases e
      exact ⟨(he hwe).1, by rw [hq.payload]; exact (he hwe).2⟩
    · rw [if_neg hwe] at e; cases e
  have hl := frame_bufferLen hc ht
  obtain ⟨o0, o1, ho, -, hd⟩ := emit_frame hc ht hw _ hl
  have hlen : (o0 :: o1 :: (f.sequenceNumber.toList ++ (addrOctets f ++ tailOctets f))).length =
      2 + f.sequenceNumber.toList.length + (addrOctets f).length + (tailOctets f).length := by
    simp; omega
  refine ⟨_, _, hl, hd, hlen, fun hn => ?_, parse_frame hc ht ho⟩
  have := emitted_acceptable hc hw hv ho (addrOctets f ++ tailOctets f) (by rw [hlen]; exact hn)
  rcases C09_new (o0 :: o1 :: (f.sequenceNumber.toList ++ (addrOctets f ++ tailOctets f))) with
    ⟨-, h⟩ | ⟨h', -⟩
  · exact h
  · exact absurd this h'

/-- A history with elements meeting the hypotheses, and the kernel's evaluation of what is
emitted. -/
example : (do
    let f ← build .enhancedBeacon [.sequenceNumber 7, .dstPanId 0xabcd,
      .dstAddress (.short ⟨[1, 2], rfl⟩), .headerElement (.timeCorrection ⟨⟨3⟩, true⟩),
      .payloadElement (.mlme [.tschTimeslot (.default 0)])]
    let n ← f.bufferLen
    f.emit (List.replicate n 0)) =
    .ok [0x00, 0x2a, 0x07, 0xcd, 0xab, 0x02, 0x01, 0x02, 0x0f, 0x03, 0x80, 0x00, 0x3f, 0x03, 0x88,
      0x01, 0x1c, 0x00] := by decide +kernel

/-- C29 in full is false: for an immediate acknowledgment built with an address and a payload,
`emit` takes the payload's space for the address and panics. -/
theorem C29_false : ¬ C29_statement := by
  intro h
  let f : FrameRepr := ⟨⟨.ack, false, false, false, false, false, false, .short, .absent, .v2006⟩,
    some 1, none, none, some [1, 2, 3, 4]⟩
  obtain ⟨d, h1, -, -, -⟩ := h (.immAck 1) [.dstAddress (.short ⟨[1, 2], rfl⟩), .payload [1, 2, 3, 4]]
    f 7 rfl (by decide) rfl rfl (by decide)
  have e : FrameRepr.emit f (List.replicate 7 0) = .panic := by decide +kernel
  rw [e] at h1
  cases h1

/-- Elements and a payload cannot be combined: whatever the elements (as long as there are some
and they have encodings), `emit` panics, in every history. -/
theorem C29_elements_payload_panics (s : Start) (cs : List Call) (f : FrameRepr) (n : Nat)
    (h : build s cs = .ok f) (ha : NoAbsent cs) (he : wantsElements cs = true)
    (ho : ElementsOk ⟨wantedHeader cs, wantedElements cs⟩) (p : Bytes)
    (hp : wantedPayload s cs = some p) (hl : p.length < 128) (hn : f.bufferLen = .ok n) :
    FrameRepr.emit f (List.replicate n 0) = .panic := by
  have hv : wantedVersion s cs = .v2020 := by simp [wantedVersion, he]
  obtain ⟨hc, hq⟩ := C28_consistent_partial s cs f h ha (fun hi => by
    have := hi.2; rw [hv] at this; cases this)
  obtain ⟨hw, -⟩ := built hc hq
  replace hc := fun n => hc.coherent n
  have hi := hq.ie
  rw [if_pos he] at hi
  have hp' := hq.payload
  rw [hp] at hp'
  set ie : InformationElementsRepr := ⟨wantedHeader cs, wantedElements cs⟩ with hie
  have hlen := frame_bufferLen' (hc 0)
  rw [hi, hp', hn] at hlen
  simp only [ok.injEq, Option.isSome_some] at hlen
  obtain ⟨o0, o1, hfc, -, hem⟩ := emit_head (hc 0) hw (ie.bufferLen true + p.length)
  rw [hlen, Nat.add_assoc, hem]
  obtain ⟨af, -, -, g⟩ := read_addr (hc _) hfc (List.replicate (ie.bufferLen true + p.length) 0) rfl
  have e2 : ∀ q r : Bytes, o0 :: o1 :: (f.sequenceNumber.toList ++ (q ++ r)) =
      (o0 :: o1 :: (f.sequenceNumber.toList ++ q)) ++ r := by simp
  have e3 : 2 + f.sequenceNumber.toList.length + (addrOctets f).length =
      (o0 :: o1 :: (f.sequenceNumber.toList ++ addrOctets f)).length := by
    simp; omega
  rw [hi, hp']
  simp only [FrameRepr.ifSome, DataFrame.setInformationElements, g, bind_ok, Option.isSome_some]
  by_cases hpl : ie.payload = []
  · obtain ⟨h5, h6⟩ := emit_elements ie true ho (.inr hpl)
      (List.replicate (ie.bufferLen true + p.length) 0) (by simp)
    have hdr : ie.header ≠ [] := by
      intro e
      have h1 : wantedHeader cs = [] := e
      have h2 : wantedElements cs = [] := hpl
      simp [wantsElements, h1, h2] at he
    have hex : ie = ⟨ie.header, []⟩ := by rw [← hpl]
    rw [e2, e3, modifyFrom_append _ _ _ _ h5, bind_ok, List.drop_replicate, Nat.add_sub_cancel_left,
      ← e2]
    obtain ⟨af, -, -, g'⟩ := read_addr (hc _) hfc (encodeElements ie true ++ List.replicate p.length 0) rfl
    have hsec : (decodeFc o0 o1).securityEnabled = false := by rw [hfc]; exact (hc 0).clear
    have hie' : (decodeFc o0 o1).iePresent = true := by rw [hfc, (hc 0).ie, hi]; rfl
    have hnone : DataFrame.informationElements (o0 :: o1 :: (f.sequenceNumber.toList ++
        (addrOctets f ++ (encodeElements ie true ++ List.replicate p.length 0)))) = .ok none := by
      simp only [DataFrame.informationElements, df_frameControl, bind_ok, fc_ie, hie', if_true, g']
      rw [e2, e3, sliceFrom_ok (by rw [List.length_append]; omega), List.drop_left, bind_ok, hex,
        C30_header_termination2_unreadable ie.header hdr (by rw [← hex]; exact ho) _ (by simpa using hl)]
      rfl
    simp only [DataFrame.setPayload, df_frameControl, bind_ok, g', fc_security, hsec, fc_ie, hie',
      Bool.false_eq_true, if_false, if_true, hnone, ofSome]
    rfl
  · have h5 := C30_payload_termination_panics ie ho hpl
      (List.replicate (ie.bufferLen true + p.length) 0) (by simp)
    rw [e2, e3, modifyFrom, sliceFrom_ok (by rw [List.length_append]; omega), List.drop_left, bind_ok,
      h5]
    rfl

/-- Such a history: a data frame with a time correction. -/
example : ∃ f, build (.data [1, 2, 3]) [.dstPanId 0xabcd, .dstAddress (.short ⟨[1, 2], rfl⟩),
    .headerElement (.timeCorrection ⟨⟨3⟩, true⟩)] = .ok f ∧ f.bufferLen = .ok 15 ∧
    f.emit (List.replicate 15 0) = .panic := ⟨_, rfl, rfl, by decide +kernel⟩

end Dot15d4.Props
