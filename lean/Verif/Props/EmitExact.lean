import Verif.Props.Fuzz
import Verif.Lemmas.NoErr

/-!
# C60 with information elements: exactly when emitting panics

`C60_panics_iff` (Props/Fuzz) without the restriction to frames without elements.  A payload behind
elements or an auxiliary security header is the one case left out here: its position is read back
from the octets just written (`C60_emit_partial` covers the coherent ones).
-/

namespace Dot15d4.Props
open Out Spec

/-! ## Writers of a fixed size -/

/-- On a buffer of `n` octets the writer succeeds and keeps the length. -/
def Fills (f : Bytes → Out Bytes) (n : Nat) : Prop :=
  ∀ b : Bytes, b.length = n → ∃ d, f b = .ok d ∧ d.length = n

/-- On a buffer of `n` octets the writer panics. -/
def Crashes (f : Bytes → Out Bytes) (n : Nat) : Prop := ∀ b : Bytes, b.length = n → f b = .panic

/-- A step of an emission at a position within a buffer: it takes `n` octets, and succeeds iff they
are there and `good` holds; otherwise it panics. -/
def Step (F : Bytes × Nat → Out (Bytes × Nat)) (n : Nat) (good : Prop) : Prop :=
  ∀ (b : Bytes) (o : Nat), o ≤ b.length →
    ((good ∧ o + n ≤ b.length) ∧ ∃ d, F (b, o) = .ok (d, o + n) ∧ d.length = b.length) ∨
    (¬ (good ∧ o + n ≤ b.length) ∧ F (b, o) = .panic)

theorem Step.nothing : Step .ok 0 True := fun b o h => .inl ⟨⟨trivial, h⟩, b, rfl, rfl⟩

theorem Step.bind {F G : Bytes × Nat → Out (Bytes × Nat)} {n m : Nat} {g h : Prop}
    (hF : Step F n g) (hG : Step G m h) : Step (fun p => F p >>= G) (n + m) (g ∧ h) := by
  intro b o ho
  rcases hF b o ho with ⟨⟨g1, l1⟩, d, e, k⟩ | ⟨c, e⟩
  · simp only [e, bind_ok]
    rcases hG d (o + n) (by omega) with ⟨⟨g2, l2⟩, d', e', k'⟩ | ⟨c, e'⟩
    · exact .inl ⟨⟨⟨g1, g2⟩, by omega⟩, d', by rw [e', Nat.add_assoc], by omega⟩
    · exact .inr ⟨fun q => c ⟨q.1.2, by omega⟩, e'⟩
  · simp only [e]
    exact .inr ⟨fun q => c ⟨q.1.1, by omega⟩, rfl⟩

theorem Step.congr {F : Bytes × Nat → Out (Bytes × Nat)} {n m : Nat} {g h : Prop}
    (hF : Step F n g) (hn : n = m) (hg : g ↔ h) : Step F m h := by
  subst hn
  intro b o ho
  rw [← hg]
  exact hF b o ho

theorem modifyAt_eq (b : Bytes) (o n : Nat) (f : Bytes → Out Bytes) (h : o + n ≤ b.length) :
    modifyAt b o n f = (do
      let d ← f ((b.drop o).take n)
      .ok (b.take o ++ (d ++ b.drop (o + n)))) := by
  rw [modifyAt, modifyFrom, sliceFrom_ok (by omega), bind_ok, modifyTo,
    sliceTo_ok (by rw [List.length_drop]; omega), bind_ok, List.drop_drop]
  cases f ((b.drop o).take n) <;> rfl

/-- One write at the position. -/
theorem Step.write {f : Bytes → Out Bytes} {n : Nat} {g : Prop} (h1 : g → Fills f n)
    (h2 : ¬ g → Crashes f n) :
    Step (fun p => do
      let d ← modifyAt p.1 p.2 n f
      .ok (d, p.2 + n)) n g := by
  intro b o ho
  by_cases hl : o + n ≤ b.length
  · have hk : ((b.drop o).take n).length = n := by simp; omega
    simp only [modifyAt_eq b o n f hl]
    by_cases hg : g
    · obtain ⟨d, e, k⟩ := h1 hg _ hk
      refine .inl ⟨⟨hg, hl⟩, _, by rw [e]; rfl, ?_⟩
      simp; omega
    · rw [h2 hg _ hk]
      exact .inr ⟨fun q => hg q.1, rfl⟩
  · simp only [modifyAt_short b o n f (by omega)]
    exact .inr ⟨fun q => hl q.2, rfl⟩

/-- The emission loop. -/
theorem Step.all {α : Type} (len : α → Nat) (emit : α → Bytes → Out Bytes) (good : α → Prop)
    (h1 : ∀ x, good x → Fills (emit x) (len x)) (h2 : ∀ x, ¬ good x → Crashes (emit x) (len x))
    (l : List α) :
    Step (fun p => emitAll len emit l p.2 p.1) (sumBy len l) (∀ x ∈ l, good x) := by
  induction l with
  | nil => exact (Step.nothing).congr rfl (by simp)
  | cons x l ih =>
    refine Step.congr (m := sumBy len (x :: l)) ?_ rfl (g := good x ∧ ∀ y ∈ l, good y) (by simp)
    have := (Step.write (h1 x) (h2 x)).bind ih
    intro b o ho
    have q := this b o ho
    have e : emitAll len emit (x :: l) o b =
        ((do
          let d ← modifyAt b o (len x) (emit x)
          .ok (d, o + len x)) >>= fun p => emitAll len emit l p.2 p.1 : Out (Bytes × Nat)) := by
      rw [emitAll]
      cases modifyAt b o (len x) (emit x) <;> rfl
    simp only [e]
    exact q

theorem Fills.all {α : Type} (len : α → Nat) (emit : α → Bytes → Out Bytes)
    (h : ∀ x, Fills (emit x) (len x)) (l : List α) :
    Fills (fun b => do
      let p ← emitAll len emit l 0 b
      .ok p.1) (sumBy len l) := by
  intro b hb
  rcases Step.all len emit (fun _ => True) (fun x _ => h x) (fun x q => absurd trivial q) l b 0
    (by omega) with ⟨-, d, e, k⟩ | ⟨c, -⟩
  · exact ⟨d, by simp only [e, bind_ok], by omega⟩
  · exact absurd ⟨fun _ _ => trivial, by omega⟩ c

theorem Fills.modifyFrom2 {f : Bytes → Out Bytes} {n : Nat} (h : Fills f n) (w : BitVec 16)
    (l : Bytes) (hl : l.length = n) :
    ∃ d, modifyFrom (u16bytes w ++ l) 2 f = .ok d ∧ d.length = 2 + n := by
  obtain ⟨d, e, k⟩ := h l hl
  have := modifyFrom_append (u16bytes w) l d f e
  rw [u16bytes_length] at this
  exact ⟨_, this, by simp [k]⟩

/-! ## Elements -/

theorem fills_header (x : HeaderIeRepr) : Fills x.emit x.bufferLen := fun b hb =>
  ⟨_, emit_header x b hb, encodeHeader_length x⟩

theorem fills_putDur (i : Nat) (t : Duration) (d : Bytes) (h : i + 2 ≤ d.length) :
    ∃ d', TschTimeslot.putDur i t d = .ok d' ∧ d'.length = d.length := by
  rw [TschTimeslot.putDur, modifyAt_eq _ _ _ _ h, copyFromSlice, if_pos (by simp; omega)]
  exact ⟨_, rfl, by simp; omega⟩

theorem fills_putDur24 (i : Nat) (w : BitVec 32) (d : Bytes) (h : i + 3 ≤ d.length) :
    ∃ d', TschTimeslot.putDur24 i w d = .ok d' ∧ d'.length = d.length := by
  rw [TschTimeslot.putDur24, modifyAt_eq _ _ _ _ h, copyFromSlice,
    if_pos (by simp [u32bytes]; omega)]
  exact ⟨_, rfl, by simp [u32bytes]; omega⟩

/-- Whatever the timings are, they are written into a buffer of `buffer_len` octets. -/
theorem fills_timeslot (r : TschTimeslotRepr) : Fills r.emit r.bufferLen := by
  intro b hb
  cases r with
  | default i =>
    match b, hb with
    | [x], _ => exact ⟨[i], rfl, rfl⟩
    | [], h => simp [TschTimeslotRepr.bufferLen] at h
    | _ :: _ :: _, h => simp [TschTimeslotRepr.bufferLen] at h
  | custom t =>
    have hn : (TschTimeslotRepr.custom t).bufferLen = if TschTimeslot.wide t then 27 else 25 := by
      unfold TschTimeslotRepr.bufferLen TschTimeslot.wide
      congr
    have hge : 25 ≤ b.length := by rw [hb, hn]; split <;> omega
    simp only [TschTimeslotRepr.emit, TschTimeslot.setTimeslotTimings]
    rw [setIdx, if_pos (by omega), bind_ok]
    have k0 : (b.set 0 t.id).length = b.length := by simp
    obtain ⟨d1, e1, k1⟩ := fills_putDur 1 t.ccaOffset _ (by rw [k0]; omega)
    obtain ⟨d2, e2, k2⟩ := fills_putDur 3 t.cca d1 (by omega)
    obtain ⟨d3, e3, k3⟩ := fills_putDur 5 t.txOffset d2 (by omega)
    obtain ⟨d4, e4, k4⟩ := fills_putDur 7 t.rxOffset d3 (by omega)
    obtain ⟨d5, e5, k5⟩ := fills_putDur 9 t.rxAckDelay d4 (by omega)
    obtain ⟨d6, e6, k6⟩ := fills_putDur 11 t.txAckDelay d5 (by omega)
    obtain ⟨d7, e7, k7⟩ := fills_putDur 13 t.rxWait d6 (by omega)
    obtain ⟨d8, e8, k8⟩ := fills_putDur 15 t.ackWait d7 (by omega)
    obtain ⟨d9, e9, k9⟩ := fills_putDur 17 t.rxTx d8 (by omega)
    obtain ⟨d10, e10, k10⟩ := fills_putDur 19 t.maxAck d9 (by omega)
    simp only [e1, e2, e3, e4, e5, e6, e7, e8, e9, e10, bind_ok]
    by_cases hw : TschTimeslot.wide t = true
    · rw [if_pos hw] at hn ⊢
      obtain ⟨d11, e11, k11⟩ := fills_putDur24 21 (t.maxTx.asUs.setWidth 32) d10 (by omega)
      obtain ⟨d12, e12, k12⟩ := fills_putDur24 24 (t.timeslotLength.asUs.setWidth 32) d11 (by omega)
      rw [e11, bind_ok, e12]
      exact ⟨d12, rfl, by omega⟩
    · rw [if_neg hw] at hn ⊢
      obtain ⟨d11, e11, k11⟩ := fills_putDur 21 t.maxTx d10 (by omega)
      obtain ⟨d12, e12, k12⟩ := fills_putDur 23 t.timeslotLength d11 (by omega)
      rw [e11, bind_ok, e12]
      exact ⟨d12, rfl, by omega⟩

theorem fills_nestedContent (r : NestedIeRepr) : Fills r.emitContent r.innerLen := by
  intro c hc
  cases r with
  | tschSynchronization r => exact ⟨_, emit_sync r c hc, rfl⟩
  | tschTimeslot r => exact fills_timeslot r c hc
  | tschSlotframeAndLink r => exact ⟨_, emit_slotframes r c hc, encodeSlotframes_length r⟩
  | channelHopping r =>
    exact ⟨_, emitContent_nested (.channelHopping r) trivial c hc, rfl⟩

theorem fills_nested (r : NestedIeRepr) : Fills r.emit r.bufferLen := by
  intro b hb
  have e1 : NestedIe.clear b = 0 :: 0 :: List.replicate r.innerLen 0 :=
    replicate_split (by rw [hb, NestedIeRepr.bufferLen]; omega)
  simp only [NestedIeRepr.emit, e1, NestedIe.setLength, updU16_cons, bind_ok, NestedIe.setSubId]
  rw [updU16_u16bytes]
  simp only [bind_ok]
  exact (fills_nestedContent r).modifyFrom2 _ _ (by simp)

/-- Only the payload termination cannot be written (`todo!()`). -/
theorem payload_fills (x : PayloadIeRepr) (h : x ≠ .payloadTermination) :
    Fills x.emit x.bufferLen := by
  cases x with
  | payloadTermination => exact absurd rfl h
  | mlme l =>
    intro b hb
    have e1 : PayloadIe.clear b = 0 :: 0 :: List.replicate (PayloadIeRepr.mlme l).innerLen 0 :=
      replicate_split (by rw [hb, PayloadIeRepr.bufferLen]; omega)
    simp only [PayloadIeRepr.emit, e1, PayloadIe.setLength, updU16_cons, bind_ok,
      PayloadIe.setGroupId]
    rw [updU16_u16bytes]
    simp only [bind_ok]
    have hf : Fills (PayloadIeRepr.emitContent (.mlme l)) (PayloadIeRepr.mlme l).innerLen :=
      Fills.all NestedIeRepr.bufferLen NestedIeRepr.emit fills_nested l
    exact hf.modifyFrom2 _ _ (by simp)

theorem payload_crashes (x : PayloadIeRepr) (h : ¬ x ≠ .payloadTermination) :
    Crashes x.emit x.bufferLen := by
  have : x = .payloadTermination := by simpa using h
  subst this
  intro b hb
  have e1 : PayloadIe.clear b = 0 :: 0 :: List.replicate 0 0 :=
    replicate_split (by rw [hb, PayloadIeRepr.bufferLen]; rfl)
  simp only [PayloadIeRepr.emit, e1, PayloadIe.setLength, updU16_cons, bind_ok,
    PayloadIe.setGroupId]
  rw [updU16_u16bytes]
  rfl

theorem Step.iff {c : Bool} {f : Bytes → Out Bytes} {g : Prop} (h1 : g → Fills f 2)
    (h2 : ¬ g → Crashes f 2) :
    Step (InformationElementsRepr.emitIf c f) (if c then 2 else 0) (c = true → g) := by
  cases c with
  | false => exact Step.nothing.congr rfl (by simp)
  | true => exact (Step.write h1 h2).congr rfl (by simp)

/-- A list of elements can be written: it has no payload termination of its own, and none is
called for, as it is when payload elements are followed by a payload. -/
def ElementsWritable (r : InformationElementsRepr) (containsPayload : Bool) : Prop :=
  .payloadTermination ∉ r.payload ∧ (containsPayload = true → r.payload = [])

theorem terminations_pt (r : InformationElementsRepr) (p : Bool) :
    ((r.terminations p).2.2 = true → False) ↔ (p = true → r.payload = []) := by
  obtain ⟨h, l⟩ := r
  cases h <;> cases l <;> cases p <;> simp [InformationElementsRepr.terminations]

/-- **C60**, the elements: `emit` of a list of elements fills the octets `buffer_len` reserves and
keeps the rest if they are there and the list is writable, and panics if not. -/
theorem C60_elements (r : InformationElementsRepr) (p : Bool) (b : Bytes) :
    ((ElementsWritable r p ∧ r.bufferLen p ≤ b.length) ∧
      ∃ d, r.emit b p = .ok d ∧ d.length = b.length) ∨
    (¬ (ElementsWritable r p ∧ r.bufferLen p ≤ b.length) ∧ r.emit b p = .panic) := by
  have s1 := Step.all HeaderIeRepr.bufferLen HeaderIeRepr.emit (fun _ => True)
    (fun x _ => fills_header x) (fun x q => absurd trivial q) r.header
  have s2 : Step (InformationElementsRepr.emitIf (r.terminations p).1
      HeaderIeRepr.headerTermination1.emit) _ _ := Step.iff (g := True)
    (fun _ => fills_header .headerTermination1) (fun q => absurd trivial q)
  have s3 : Step (InformationElementsRepr.emitIf (r.terminations p).2.1
      HeaderIeRepr.headerTermination2.emit) _ _ := Step.iff (g := True)
    (fun _ => fills_header .headerTermination2) (fun q => absurd trivial q)
  have s4 := Step.all PayloadIeRepr.bufferLen PayloadIeRepr.emit (· ≠ .payloadTermination)
    payload_fills payload_crashes r.payload
  have s5 : Step (InformationElementsRepr.emitIf (r.terminations p).2.2
      PayloadIeRepr.payloadTermination.emit) _ _ := Step.iff (g := False) (fun q => q.elim)
    (fun _ => payload_crashes .payloadTermination (by simp))
  have s := ((((s1.bind s2).bind s3).bind s4).bind s5).congr (m := r.bufferLen p)
    (h := ElementsWritable r p) (by
      simp only [InformationElementsRepr.bufferLen]; rfl) (by
      rw [terminations_pt, ElementsWritable]
      constructor
      · rintro ⟨⟨-, h⟩, h'⟩
        exact ⟨fun q => h _ q rfl, h'⟩
      · rintro ⟨h, h'⟩
        exact ⟨⟨⟨⟨fun _ _ => trivial, fun _ => trivial⟩, fun _ => trivial⟩,
          fun x hx e => h (e ▸ hx)⟩, h'⟩)
  have e : r.emit b p = (((((emitAll HeaderIeRepr.bufferLen HeaderIeRepr.emit r.header 0 b) >>=
      InformationElementsRepr.emitIf (r.terminations p).1 HeaderIeRepr.headerTermination1.emit) >>=
      InformationElementsRepr.emitIf (r.terminations p).2.1 HeaderIeRepr.headerTermination2.emit) >>=
      fun q => emitAll PayloadIeRepr.bufferLen PayloadIeRepr.emit r.payload q.2 q.1) >>=
      InformationElementsRepr.emitIf (r.terminations p).2.2
        PayloadIeRepr.payloadTermination.emit) >>= fun q => .ok q.1 := by
    simp only [InformationElementsRepr.emit, bind_assoc]
  rw [e]
  rcases s b 0 (by omega) with ⟨c, d, h1, h2⟩ | ⟨c, h1⟩ <;> rw [Nat.zero_add] at c <;>
    simp only at h1 <;> rw [h1]
  · exact .inl ⟨c, d, rfl, h2⟩
  · exact .inr ⟨c, rfl⟩

/-! ## Frames -/

/-- The octets `buffer_len` reserves for the elements. -/
def elementsLen (f : FrameRepr) : Nat :=
  match f.informationElements with
  | some ie => ie.bufferLen f.payload.isSome
  | none => 0

/-- The octets after the frame control field in a buffer of `buffer_len()` octets. -/
def roomAll (f : FrameRepr) : Nat :=
  f.sequenceNumber.toList.length + reservedLen f + elementsLen f + (f.payload.getD []).length

/-- Where the frame control field says the addressing fields end, counted from its own end. -/
def declaredEnd (f : FrameRepr) : Nat :=
  seqDeclared f + declaredLen f.frameControl (roomAll f - seqDeclared f)

/-- The frame can be emitted: the addressing fields fit behind the declared sequence number, the
elements can be written and fit at their declared position, and the declared position of the
payload is such that it ends with the buffer. -/
def EmittableAll (f : FrameRepr) : Prop :=
  (f.addressingFields.isSome → seqDeclared f + (addrOctets f).length ≤ roomAll f) ∧
  (∀ ie, f.informationElements = some ie → ElementsWritable ie f.payload.isSome ∧
    declaredEnd f + ie.bufferLen f.payload.isSome ≤ roomAll f) ∧
  (f.payload.isSome → declaredEnd f + (f.payload.getD []).length = roomAll f)

theorem addrEnd_short (o0 o1 : Byte) (l : Bytes)
    (h : l.length < if (decodeFc o0 o1).seqNoSuppression then 0 else 1) :
    DataFrame.addrEnd (o0 :: o1 :: l) = .panic := by
  have h0 : (decodeFc o0 o1).seqNoSuppression = false ∧ l = [] := by
    cases hq : (decodeFc o0 o1).seqNoSuppression <;> simp [hq] at h ⊢
    exact h
  obtain ⟨h0, rfl⟩ := h0
  simp only [DataFrame.addrEnd, DataFrame.addressing, df_frameControl, bind_ok, fc_sup, h0,
    Bool.false_eq_true, if_false]
  rfl

theorem declaredLen_le (fc : FrameControlRepr) (room : Nat) : declaredLen fc room ≤ room := by
  rw [declaredLen]
  split
  · omega
  · split <;> omega

theorem setElements_any (q : Option InformationElementsRepr) (p : Bool) (o0 o1 : Byte) (l : Bytes)
    (hd : (decodeFc o0 o1).dstMode ≠ .unknown) (hs : (decodeFc o0 o1).srcMode ≠ .unknown) :
    let s := if (decodeFc o0 o1).seqNoSuppression then 0 else 1
    let good := ∀ ie, q = some ie → ElementsWritable ie p ∧
      s + declaredLen (decodeFc o0 o1) (l.length - s) + ie.bufferLen p ≤ l.length
    ((good ∧ ∃ l', FrameRepr.ifSome (fun b ie => DataFrame.setInformationElements b ie p) q
        (o0 :: o1 :: l) = .ok (o0 :: o1 :: l') ∧ l'.length = l.length) ∨
    (¬ good ∧ FrameRepr.ifSome (fun b ie => DataFrame.setInformationElements b ie p) q
        (o0 :: o1 :: l) = .panic)) := by
  intro s good
  cases q with
  | none => exact .inl ⟨by simp [good], l, rfl, rfl⟩
  | some ie =>
    have hg : good ↔ ElementsWritable ie p ∧
        s + declaredLen (decodeFc o0 o1) (l.length - s) + ie.bufferLen p ≤ l.length := by
      simp [good]
    rw [hg]
    simp only [FrameRepr.ifSome, DataFrame.setInformationElements]
    by_cases hl : s ≤ l.length
    · rw [addrEnd_any o0 o1 l hd hs hl, bind_ok]
      have hdl := declaredLen_le (decodeFc o0 o1) (l.length - s)
      change (_ ∧ ∃ l', modifyFrom _ (2 + s + declaredLen _ (l.length - s)) _ = _ ∧ _) ∨
        (_ ∧ modifyFrom _ (2 + s + declaredLen _ (l.length - s)) _ = _)
      generalize declaredLen (decodeFc o0 o1) (l.length - s) = k at *
      have hk : 2 + s + k = (s + k) + 2 := by omega
      rw [modifyFrom, sliceFrom_ok (by simp; omega), bind_ok, hk]
      rw [show List.drop (s + k + 2) (o0 :: o1 :: l) = l.drop (s + k) from rfl]
      have hlen : (l.drop (s + k)).length = l.length - (s + k) := List.length_drop
      rcases C60_elements ie p (l.drop (s + k)) with ⟨⟨c1, c2⟩, d, e, hd'⟩ | ⟨c, e⟩
      · refine .inl ⟨⟨c1, by omega⟩, l.take (s + k) ++ d, ?_, by simp; omega⟩
        rw [e]; rfl
      · refine .inr ⟨fun q => c ⟨q.1, by omega⟩, ?_⟩
        rw [e]; rfl
    · rw [addrEnd_short o0 o1 l (by change l.length < s; omega)]
      exact .inr ⟨fun q => by omega, rfl⟩

/-- Emission writes the frame control field and the sequence number, and then depends on three
lengths. -/
theorem emit_until_payload (f : FrameRepr) (hw : Writable f.frameControl) :
    f.bufferLen = .ok (roomAll f + 2) ∧
    ∃ o0 o1, decodeFc o0 o1 = f.frameControl ∧
      ((((f.addressingFields.isSome → seqDeclared f + (addrOctets f).length ≤ roomAll f) ∧
        (∀ ie, f.informationElements = some ie → ElementsWritable ie f.payload.isSome ∧
          declaredEnd f + ie.bufferLen f.payload.isSome ≤ roomAll f)) ∧
        ∃ l, l.length = roomAll f ∧ f.emit (List.replicate (roomAll f + 2) 0) =
          FrameRepr.ifSome DataFrame.setPayload f.payload (o0 :: o1 :: l)) ∨
      (¬ ((f.addressingFields.isSome → seqDeclared f + (addrOctets f).length ≤ roomAll f) ∧
        (∀ ie, f.informationElements = some ie → ElementsWritable ie f.payload.isSome ∧
          declaredEnd f + ie.bufferLen f.payload.isSome ≤ roomAll f)) ∧
        f.emit (List.replicate (roomAll f + 2) 0) = .panic)) := by
  have hlen : f.bufferLen = .ok (roomAll f + 2) := by
    have ha : mapOpt (fun af => AddressingFieldsRepr.bufferLen af f.frameControl)
        f.addressingFields = .ok (f.addressingFields.map fun _ => reservedLen f) := by
      cases ha : f.addressingFields with
      | none => rfl
      | some a =>
        simp only [mapOpt, AddressingFieldsRepr.bufferLen, modeLen_eq hw.2.1, modeLen_eq hw.2.2,
          bind_ok, Option.map_some, reservedLen, ha]
    have hg : ((f.addressingFields.map fun _ => reservedLen f).getD 0) = reservedLen f := by
      cases ha : f.addressingFields with
      | none => simp [reservedLen, ha]
      | some a => rfl
    rw [FrameRepr.bufferLen, ha]
    simp only [bind_ok, hg, ok.injEq, roomAll]
    have hq : (if f.sequenceNumber.isSome then 1 else 0) = f.sequenceNumber.toList.length := by
      cases f.sequenceNumber <;> rfl
    have hp : (match f.payload with | some p => p.length | none => 0) = (f.payload.getD []).length := by
      cases f.payload <;> rfl
    rw [hq]
    change 2 + _ + _ + elementsLen f + (match f.payload with | some p => p.length | none => 0) = _
    rw [hp]
    omega
  refine ⟨hlen, ?_⟩
  obtain ⟨o0, o1, h1, -, ho, -, -⟩ := C03_emit_parse f.frameControl hw []
  refine ⟨o0, o1, ho, ?_⟩
  have hfc : ∀ l : Bytes, DataFrame.setFrameControl (0 :: 0 :: l) f.frameControl =
      .ok (o0 :: o1 :: l) := by
    intro l
    simp only [DataFrame.setFrameControl, modifyTo]
    rw [sliceTo_ok (by simp)]
    simp only [bind_ok, List.take_succ_cons, List.take_zero, List.drop_succ_cons, List.drop_zero, h1]
    rfl
  have hrep : List.replicate (roomAll f + 2) (0 : Byte) = 0 :: 0 :: List.replicate (roomAll f) 0 := rfl
  rw [FrameRepr.emit, hrep, hfc, bind_ok]
  obtain ⟨l1, e1, k1⟩ := setSeq_any o0 o1 (List.replicate (roomAll f) 0) f.sequenceNumber (by
    rw [List.length_replicate, roomAll]; omega)
  rw [List.length_replicate] at k1
  rw [e1, bind_ok]
  have hsd : (if (decodeFc o0 o1).seqNoSuppression then 0 else 1) = seqDeclared f := by
    rw [ho]; rfl
  rcases setAddr_any f o0 o1 l1 with ⟨c1, l2, e2, k2⟩ | ⟨c1, e2⟩
  · rw [e2, bind_ok]
    have := setElements_any f.informationElements f.payload.isSome o0 o1 l2
      (by rw [ho]; exact hw.2.1) (by rw [ho]; exact hw.2.2)
    dsimp only at this
    rw [hsd] at this c1
    rw [k2, k1, ho] at this
    rw [k1] at c1
    rcases this with ⟨c3, l3, e3, k3⟩ | ⟨c3, e3⟩
    · rw [e3, bind_ok]
      exact .inl ⟨⟨c1, c3⟩, l3, k3, rfl⟩
    · rw [e3]
      exact .inr ⟨fun q => c3 q.2, rfl⟩
  · rw [e2]
    refine .inr ⟨fun h => c1 ?_, rfl⟩
    rw [hsd, k1]
    exact h.1

/-- **C60**, exactly, for every frame without payload, and for every frame whose payload position
need not be read back from its elements or security header: emitting into a buffer of
`buffer_len()` octets fills it if the lengths agree and the elements are writable, and panics if
not. -/
theorem C60_elements_panics_iff (f : FrameRepr)
    (hp : f.payload = none ∨
      (f.frameControl.iePresent = false ∧ f.frameControl.securityEnabled = false))
    (hw : Writable f.frameControl) :
    ∃ n, f.bufferLen = .ok n ∧
      ((EmittableAll f ∧ ∃ d, f.emit (List.replicate n 0) = .ok d ∧ d.length = n) ∨
       (¬ EmittableAll f ∧ f.emit (List.replicate n 0) = .panic)) := by
  obtain ⟨hl, o0, o1, ho, h⟩ := emit_until_payload f hw
  refine ⟨_, hl, ?_⟩
  rcases h with ⟨⟨c1, c2⟩, l, k, e⟩ | ⟨c, e⟩
  · rw [e]
    rcases hp with hp | ⟨hb, hs⟩
    · rw [hp]
      exact .inl ⟨⟨c1, c2, by simp [hp]⟩, _, rfl, by simp [k]⟩
    · have := setPayload_any f.payload o0 o1 l (by rw [ho]; exact hw.2.1)
        (by rw [ho]; exact hw.2.2) (by rw [ho]; exact hs) (by rw [ho]; exact hb)
      dsimp only at this
      have hsd : (if (decodeFc o0 o1).seqNoSuppression then 0 else 1) = seqDeclared f := by
        rw [ho]; rfl
      rw [hsd, k, ho] at this
      have hem : EmittableAll f ↔ (f.payload.isSome → seqDeclared f ≤ roomAll f ∧
          seqDeclared f + declaredLen f.frameControl (roomAll f - seqDeclared f) +
            (f.payload.getD []).length = roomAll f) := by
        rw [EmittableAll, and_iff_right c1, and_iff_right c2]
        refine imp_congr_right fun _ => ?_
        rw [declaredEnd]
        omega
      rw [← hem] at this
      exact this
  · rw [e]
    exact .inr ⟨fun q => c ⟨q.1, q.2.1⟩, rfl⟩

/-- **C60**: payload elements and a payload together are never emitted - the payload termination
between them is unimplemented - and neither is a frame that lists that termination itself. -/
theorem C60_termination_panics (f : FrameRepr) (ie : InformationElementsRepr)
    (hi : f.informationElements = some ie) (hw : Writable f.frameControl)
    (h : .payloadTermination ∈ ie.payload ∨ (ie.payload ≠ [] ∧ f.payload.isSome)) :
    ∃ n, f.bufferLen = .ok n ∧ f.emit (List.replicate n 0) = .panic := by
  obtain ⟨hl, o0, o1, -, h'⟩ := emit_until_payload f hw
  refine ⟨_, hl, ?_⟩
  rcases h' with ⟨⟨-, c⟩, -⟩ | ⟨-, e⟩
  · obtain ⟨⟨c1, c2⟩, -⟩ := c ie hi
    rcases h with h | ⟨h1, h2⟩
    · exact absurd h c1
    · exact absurd (c2 h2) h1
  · exact e

theorem noErr_addrEnd (o0 o1 : Byte) (l : Bytes) : NoErr (DataFrame.addrEnd (o0 :: o1 :: l)) := by
  simp only [DataFrame.addrEnd, DataFrame.addressing, df_frameControl, bind_ok]
  refine (NoErr.field ..).bind fun v _ => NoErr.bind ?_ fun af _ => ?_
  · refine (NoErr.field ..).bind fun v _ => ?_
    cases v <;> exact (NoErr.sliceFrom ..).bind fun _ _ => NoErr.toOption _
  · cases af with
    | none => exact NoErr.ok _
    | some af => exact (NoErr.afLen af).bind fun _ _ => NoErr.ok _

/-- `set_payload` never returns an error, and keeps the length. -/
theorem setPayload_total (o0 o1 : Byte) (l p : Bytes) :
    NoErr (DataFrame.setPayload (o0 :: o1 :: l) p) ∧
    ∀ d, DataFrame.setPayload (o0 :: o1 :: l) p = .ok d → d.length = l.length + 2 := by
  have ha := noErr_addrEnd o0 o1 l
  constructor
  · simp only [DataFrame.setPayload, df_frameControl, bind_ok]
    refine ha.bind fun o _ => NoErr.bind ?_ fun o _ => NoErr.bind ?_ fun o _ => ?_
    · refine (NoErr.field ..).bind fun v _ => ?_
      cases v
      · exact NoErr.ok _
      · simp only [DataFrame.auxSecHeader, df_frameControl, bind_ok]
        refine NoErr.bind ?_ fun h _ => NoErr.bind ?_ fun h _ => NoErr.bind ?_ fun _ _ => NoErr.ok _
        · refine (NoErr.field ..).bind fun v _ => ?_
          cases v
          · exact NoErr.ok _
          · exact ha.bind fun _ _ => (NoErr.sliceFrom ..).bind fun _ _ => NoErr.ok _
        · cases h
          · exact NoErr.panic
          · exact NoErr.ok _
        · exact ((NoErr.idx ..).bind fun _ _ => NoErr.ok _ : NoErr (AuxSecHeader.len h))
    · refine (NoErr.field ..).bind fun v _ => ?_
      cases v
      · exact NoErr.ok _
      · simp only [DataFrame.informationElements, df_frameControl, bind_ok]
        have hn : ∀ ie, (do
            let v ← FrameControl.iePresent [o0, o1]
            if v then do
              let o ← DataFrame.addrEnd (o0 :: o1 :: l)
              let s ← sliceFrom (o0 :: o1 :: l) o
              (InformationElements.new s).toOption
            else .ok none : Out (Option InformationElements)) = .ok (some ie) →
            ∃ s, InformationElements.new s = .ok ie := by
          intro ie h
          obtain ⟨v, -, h⟩ := bind_eq_ok.mp h
          cases v
          · cases h
          · obtain ⟨o, -, h⟩ := bind_eq_ok.mp h
            obtain ⟨s, -, h⟩ := bind_eq_ok.mp h
            refine ⟨s, ?_⟩
            cases hn : InformationElements.new s <;> rw [hn] at h <;> simp [toOption] at h
            rw [h]
        refine NoErr.bind ?_ fun h hh => NoErr.bind ?_ fun ie he => NoErr.bind ?_ fun _ _ => NoErr.ok _
        · refine (NoErr.field ..).bind fun v _ => ?_
          cases v
          · exact NoErr.ok _
          · exact ha.bind fun _ _ => (NoErr.sliceFrom ..).bind fun _ _ => NoErr.toOption _
        · cases h
          · exact NoErr.panic
          · exact NoErr.ok _
        · cases h with
          | none => cases he
          | some ie' =>
            cases he
            obtain ⟨s, hs⟩ := hn _ hh
            obtain ⟨-, _, _, _, _, _, _, _, -, -, -, -, -, -, -, -, -, -, hl, -⟩ :=
              C15_partition _ _ hs
            rw [hl]
            exact NoErr.ok _
    · refine (NoErr.sliceFrom ..).bind fun s _ => NoErr.bind ?_ fun _ _ => NoErr.ok _
      dsimp only [copyFromSlice]
      split
      · exact NoErr.ok _
      · exact NoErr.panic
  · intro d h
    obtain ⟨_, -, h⟩ := bind_eq_ok.mp h
    obtain ⟨_, -, h⟩ := bind_eq_ok.mp h
    obtain ⟨_, -, h⟩ := bind_eq_ok.mp h
    obtain ⟨o, -, h⟩ := bind_eq_ok.mp h
    obtain ⟨s, hs, h⟩ := bind_eq_ok.mp h
    obtain ⟨s', hc, h⟩ := bind_eq_ok.mp h
    simp only [ok.injEq] at h
    rw [sliceFrom] at hs
    split at hs
    · rename_i h1
      simp only [ok.injEq] at hs
      dsimp only [copyFromSlice] at hc
      split at hc
      · rename_i h2
        simp only [ok.injEq] at hc
        subst h hs hc
        simp only [List.length_append, List.length_take, List.length_drop, List.length_cons] at h1 h2 ⊢
        omega
      · cases hc
    · cases hs

/-- **C60**, for every frame whose frame control field can be written at all: `buffer_len` gives a
length, and emitting into a buffer of that length either fills exactly that buffer or panics; it
never returns an error. -/
theorem C60_emit_fills_or_panics (f : FrameRepr) (hw : Writable f.frameControl) :
    ∃ n, f.bufferLen = .ok n ∧ ((∃ d, f.emit (List.replicate n 0) = .ok d ∧ d.length = n) ∨
      f.emit (List.replicate n 0) = .panic) := by
  obtain ⟨hl, o0, o1, -, h⟩ := emit_until_payload f hw
  refine ⟨_, hl, ?_⟩
  rcases h with ⟨-, l, k, e⟩ | ⟨-, e⟩
  · rw [e]
    cases hp : f.payload with
    | none => exact .inl ⟨_, rfl, by simp [k]⟩
    | some p =>
      obtain ⟨h1, h2⟩ := setPayload_total o0 o1 l p
      simp only [FrameRepr.ifSome]
      cases hq : DataFrame.setPayload (o0 :: o1 :: l) p with
      | ok d => exact .inl ⟨d, rfl, by rw [h2 d hq, k]⟩
      | err => exact absurd hq h1.ne
      | panic => exact .inr rfl
  · exact .inr e

/-- **C60** for the fuzz target `repr`, for the same frames. -/
theorem C60_fuzz_target_elements (f : FrameRepr)
    (hp : f.payload = none ∨
      (f.frameControl.iePresent = false ∧ f.frameControl.securityEnabled = false))
    (hw : Writable f.frameControl) :
    Fuzz.reprTarget f = .panic ↔ f.validate = .ok () ∧ ¬ EmittableAll f := by
  obtain ⟨n, hn, h⟩ := C60_elements_panics_iff f hp hw
  have hv := validate_returns f
  rw [Fuzz.reprTarget]
  cases hq : f.validate with
  | panic => rw [hq] at hv; simp at hv
  | err => simp
  | ok u =>
    simp only [hn, bind_ok, bind_ok_panic, true_and]
    rcases h with ⟨h1, d, h2, -⟩ | ⟨h1, h2⟩ <;> rw [h2] <;> simp [h1]

/-- A beacon with a time correction and an MLME element. -/
def elementBeacon : FrameRepr :=
  ⟨{ FrameBuilder.fc0 .beacon .v2020 true with iePresent := true }, none, none,
    some ⟨[.timeCorrection ⟨⟨5⟩, false⟩], [.mlme [.tschTimeslot (.default 0)]]⟩, none⟩

/-- The hypotheses are met, and both outcomes occur: the beacon is emitted; without its suppression
bit the elements, moved on by one octet, do not fit; and a payload termination in the list is not
written. -/
example : elementBeacon.payload = none ∧ Writable elementBeacon.frameControl ∧
    elementBeacon.validate = .ok () ∧ EmittableAll elementBeacon ∧
    elementBeacon.emit (List.replicate 13 0) = .ok [0x00, 0x23, 0x02, 0x0f, 0x05, 0x00, 0x00, 0x3f,
      0x03, 0x88, 0x01, 0x1c, 0x00] ∧
    ¬ EmittableAll { elementBeacon with frameControl :=
      { elementBeacon.frameControl with seqNoSuppression := false } } ∧
    ¬ EmittableAll { elementBeacon with
      informationElements := (some ⟨[], [.mlme [], .payloadTermination]⟩) } := by
  refine ⟨rfl, by decide, rfl, ⟨by decide, ?_, by decide⟩, by decide +kernel, ?_, ?_⟩
  · intro ie h
    cases h
    exact ⟨⟨by decide, by decide⟩, by decide⟩
  · rintro ⟨-, h, -⟩
    have := (h _ rfl).2
    revert this
    decide
  · rintro ⟨-, h, -⟩
    have := (h _ rfl).1.1
    revert this
    decide

end Dot15d4.Props
