import Verif.Props.EmitExact

/-!
# C87: emitting a frame into a buffer that has been used before

The octets a frame is emitted as should not depend on what the buffer held before.  They do: the flags
of the frame control field are only ever set.  They depend on nothing else.
-/

namespace Dot15d4.Props
open Out Spec

/-- The flags of the frame control field, by the number of their bit (IEEE 802.15.4 figure 7-2); bit 7
is reserved and sent as 0. -/
def fcFlag (r : FrameControlRepr) : Nat → Bool
  | 3 => r.securityEnabled
  | 4 => r.framePending
  | 5 => r.ackRequest
  | 6 => r.panIdCompression
  | 8 => r.seqNoSuppression
  | 9 => r.iePresent
  | _ => false

/-- The buffer starts with a flag set that the frame control field `r` does not have. -/
def Stale (r : FrameControlRepr) (b : Bytes) : Prop :=
  ∃ o0 o1 l i, b = o0 :: o1 :: l ∧ 3 ≤ i ∧ i ≤ 9 ∧ fcBit o0 o1 i = true ∧ fcFlag r i = false

/-- A frame the builder gives for a sequence of calls that C29 covers: no address given as absent, no
address in an immediate acknowledgment, elements that have an encoding and no payload after them. -/
structure BuiltFrame (s : Start) (cs : List Call) (f : FrameRepr) : Prop where
  built : build s cs = .ok f
  addresses : NoAbsent cs
  ack : IsImmAck s cs → lastOf Call.dst? cs = none ∧ lastOf Call.src? cs = none
  elements : wantsElements cs = true →
    ElementsOk ⟨wantedHeader cs, wantedElements cs⟩ ∧ wantedPayload s cs = none

/-- **C87**: the octets emitted do not depend on what the buffer held. -/
def C87_statement : Prop := ∀ s cs f n (b : Bytes), BuiltFrame s cs f → f.bufferLen = .ok n →
  b.length = n → f.emit b = f.emit (List.replicate n 0)

theorem BuiltFrame.parts {s : Start} {cs : List Call} {f : FrameRepr} (h : BuiltFrame s cs f) :
    Coherent f (tailOctets f).length ∧ TailOk f ∧ Writable f.frameControl := by
  obtain ⟨hc, hq⟩ := C28_consistent_partial s cs f h.built h.addresses h.ack
  obtain ⟨hw, -⟩ := Props.built hc hq
  refine ⟨hc.coherent _, ?_, hw⟩
  intro ie e
  rw [hq.ie] at e
  by_cases hwe : wantsElements cs = true
  · rw [if_pos hwe] at e
    cases e
    exact ⟨(h.elements hwe).1, by rw [hq.payload]; exact (h.elements hwe).2⟩
  · rw [if_neg hwe] at e; cases e

/-- The frame control field over old octets. -/
theorem setFc_old (r : FrameControlRepr) (o0 o1 : Byte) (l : Bytes) :
    DataFrame.setFrameControl (o0 :: o1 :: l) r =
      .ok (u16bytes (emitWord r (u16le o0 o1)) ++ l) := by
  simp only [DataFrame.setFrameControl, modifyTo]
  rw [sliceTo_ok (by simp)]
  simp only [bind_ok, List.take_succ_cons, List.take_zero, List.drop_succ_cons, List.drop_zero,
    FrameControlRepr.emit_cons, List.append_nil]

theorem emitWord_flag (r : FrameControlRepr) (w : BitVec 16) (i : Nat) (h3 : 3 ≤ i) (h9 : i ≤ 9) :
    (emitWord r w).getLsbD i = (w.getLsbD i || fcFlag r i) := by
  rw [emitWord_bits]
  have : i = 3 ∨ i = 4 ∨ i = 5 ∨ i = 6 ∨ i = 7 ∨ i = 8 ∨ i = 9 := by omega
  rcases this with h | h | h | h | h | h | h <;> subst h <;>
    simp [-BitVec.getLsbD_eq_getElem, fcFlag]

theorem emitWord_other (r : FrameControlRepr) (w v : BitVec 16) (i : Nat) (h : i < 3 ∨ 9 < i) :
    (emitWord r w).getLsbD i = (emitWord r v).getLsbD i := by
  rw [emitWord_bits, emitWord_bits]
  rcases h with h | h
  · rw [if_pos h, if_pos h]
  · simp only [show ¬ i < 3 by omega, show ¬ i = 3 by omega, show ¬ i = 4 by omega,
      show ¬ i = 5 by omega, show ¬ i = 6 by omega, show ¬ i = 7 by omega, show ¬ i = 8 by omega,
      show ¬ i = 9 by omega, if_false]

theorem emitWord_clean_iff (r : FrameControlRepr) (o0 o1 : Byte) :
    emitWord r (u16le o0 o1) = emitWord r 0 ↔
      ∀ i, 3 ≤ i → i ≤ 9 → fcBit o0 o1 i = true → fcFlag r i = true := by
  constructor
  · intro h i h3 h9 hb
    have e := congrArg (BitVec.getLsbD · i) h
    rw [emitWord_flag r _ i h3 h9, emitWord_flag r _ i h3 h9, ← fcBit_eq, hb] at e
    simpa using e.symm
  · intro h
    refine BitVec.eq_of_getLsbD_eq fun i _ => ?_
    by_cases hi : i < 3 ∨ 9 < i
    · exact emitWord_other r _ _ i hi
    · rw [emitWord_flag r _ i (by omega) (by omega), emitWord_flag r _ i (by omega) (by omega),
        ← fcBit_eq]
      have := h i (by omega) (by omega)
      cases hb : fcBit o0 o1 i
      · simp
      · rw [this hb]; simp

/-- Emission into any buffer of the right length, from the frame control field on. -/
theorem emit_rest {f : FrameRepr} (hc : Coherent f (tailOctets f).length) (ht : TailOk f)
    {o0 o1 : Byte} (ho : decodeFc o0 o1 = f.frameControl) (l : Bytes)
    (hl : l.length = f.sequenceNumber.toList.length + (addrOctets f).length +
      (tailOctets f).length) :
    (do
      let b ← FrameRepr.ifSome DataFrame.setSequenceNumber f.sequenceNumber (o0 :: o1 :: l)
      let b ← FrameRepr.ifSome DataFrame.setAddressingFields f.addressingFields b
      let b ← FrameRepr.ifSome
        (fun b ie => DataFrame.setInformationElements b ie f.payload.isSome) f.informationElements b
      FrameRepr.ifSome DataFrame.setPayload f.payload b) =
      .ok (o0 :: o1 :: (f.sequenceNumber.toList ++ (addrOctets f ++ tailOctets f))) := by
  have hseq : FrameRepr.ifSome DataFrame.setSequenceNumber f.sequenceNumber (o0 :: o1 :: l) =
      .ok (o0 :: o1 :: (f.sequenceNumber.toList ++ l.drop f.sequenceNumber.toList.length)) := by
    cases hq : f.sequenceNumber with
    | none => rfl
    | some n =>
      cases l with
      | nil => rw [hq] at hl; simp at hl; omega
      | cons x l =>
        have e : ∀ v : BitVec 16, v ||| (boolU16 false <<< 8) = v := by
          intro v; simp [boolU16]
        simp only [FrameRepr.ifSome, DataFrame.setSequenceNumber, modifyTo, Option.toList]
        rw [sliceTo_ok (by simp)]
        simp only [bind_ok, List.take_succ_cons, List.take_zero, FrameControl.setSeqNoSuppression,
          updU16_cons, e, u16bytes_le]
        rfl
  rw [hseq, bind_ok]
  generalize hl' : l.drop f.sequenceNumber.toList.length = l1
  have k1 : l1.length = (addrOctets f).length + (tailOctets f).length := by
    rw [← hl', List.length_drop]; omega
  have hsplit : l1 = l1.take (addrOctets f).length ++ l1.drop (addrOctets f).length := by simp
  generalize hz : l1.take (addrOctets f).length = z at hsplit
  generalize hr : l1.drop (addrOctets f).length = r at hsplit
  have kz : z.length = (addrOctets f).length := by rw [← hz, List.length_take]; omega
  have kr : r.length = (tailOctets f).length := by rw [← hr, List.length_drop]; omega
  rw [hsplit, emit_addr hc ho z r kz, bind_ok]
  have e2 : ∀ q r : Bytes, o0 :: o1 :: (f.sequenceNumber.toList ++ (q ++ r)) =
      (o0 :: o1 :: (f.sequenceNumber.toList ++ q)) ++ r := by simp
  have e3 : 2 + f.sequenceNumber.toList.length + (addrOctets f).length =
      (o0 :: o1 :: (f.sequenceNumber.toList ++ addrOctets f)).length := by
    simp; omega
  cases hi : f.informationElements with
  | none =>
    have hie : (decodeFc o0 o1).iePresent = false := by rw [ho, hc.ie, hi]; rfl
    have hsec : (decodeFc o0 o1).securityEnabled = false := by rw [ho]; exact hc.clear
    simp only [FrameRepr.ifSome, bind_ok]
    cases hp : f.payload with
    | none =>
      have : tailOctets f = [] := by simp [tailOctets, hi, hp]
      rw [this] at kr ⊢
      rw [List.length_eq_zero_iff.mp kr]
    | some p =>
      obtain ⟨af, -, -, g⟩ := read_addr hc ho r kr
      simp only [DataFrame.setPayload, df_frameControl, bind_ok, g, fc_security, hsec, fc_ie, hie,
        Bool.false_eq_true, if_false]
      have et : tailOctets f = p := by simp [tailOctets, hi, hp]
      have hcp : copyFromSlice r p = .ok p := by
        rw [copyFromSlice, if_pos (by rw [kr, et])]
      rw [e2, e2, e3, modifyFrom_append _ _ p (fun s => copyFromSlice s p) hcp, et]
  | some ie =>
    obtain ⟨q1, q2⟩ := ht ie hi
    have et : tailOctets f = encodeElements ie false := by simp [tailOctets, hi, q2]
    obtain ⟨af, -, -, g⟩ := read_addr hc ho r kr
    obtain ⟨h5, h6⟩ := emit_elements ie false q1 (.inl rfl) r (by
        obtain ⟨-, h6⟩ := emit_elements ie false q1 (.inl rfl)
          (List.replicate (ie.bufferLen false) 0) (by simp)
        rw [kr, et, h6])
    simp only [FrameRepr.ifSome, DataFrame.setInformationElements, g, bind_ok, q2, Option.isSome]
    rw [e2, e2, e3, modifyFrom_append _ _ _ _ h5, ← h6,
      List.drop_of_length_le (by rw [kr, et]), et, List.append_nil]
    rfl

/-- Whatever is emitted starts with the frame control field written over the old one. -/
theorem emit_starts {f : FrameRepr} (b0 b1 : Byte) (l d : Bytes)
    (h : f.emit (b0 :: b1 :: l) = .ok d) : ∃ l',
    d = u16bytes (emitWord f.frameControl (u16le b0 b1)) ++ l' := by
  have keep : ∀ (o0 o1 : Byte) (l : Bytes) (n : Nat) (g : Bytes → Out Bytes) (d : Bytes), 2 ≤ n →
      modifyFrom (o0 :: o1 :: l) n g = .ok d → ∃ l', d = o0 :: o1 :: l' := by
    intro o0 o1 l n g d hn h
    obtain ⟨s, -, h⟩ := bind_eq_ok.1 h
    obtain ⟨s', -, h⟩ := bind_eq_ok.1 h
    simp only [ok.injEq] at h
    obtain ⟨m, rfl⟩ : ∃ m, n = m + 2 := ⟨n - 2, by omega⟩
    exact ⟨_, h.symm⟩
  rw [FrameRepr.emit, setFc_old, bind_ok] at h
  rw [show u16bytes (emitWord f.frameControl (u16le b0 b1)) = [_, _] from rfl] at h ⊢
  generalize (emitWord f.frameControl (u16le b0 b1)).setWidth 8 = o0 at h ⊢
  generalize ((emitWord f.frameControl (u16le b0 b1)) >>> 8).setWidth 8 = o1 at h ⊢
  have key : ∀ {α : Type} (g : Bytes → α → Out Bytes) (x : Option α) (l d : Bytes),
      (∀ a l d, g (o0 :: o1 :: l) a = .ok d → ∃ l', d = o0 :: o1 :: l') →
      FrameRepr.ifSome g x (o0 :: o1 :: l) = .ok d → ∃ l', d = o0 :: o1 :: l' := by
    intro α g x l d hg h
    cases x with
    | none => simp only [FrameRepr.ifSome, ok.injEq] at h; exact ⟨l, h.symm⟩
    | some a => exact hg a l d h
  obtain ⟨d1, h1, h⟩ := bind_eq_ok.1 h
  obtain ⟨l1, rfl⟩ := key _ _ _ _ (fun a l d h => by
    obtain ⟨b, hb, h⟩ := bind_eq_ok.1 h
    have e : ∀ v : BitVec 16, v ||| (boolU16 false <<< 8) = v := by
      intro v; simp [boolU16]
    rw [modifyTo, sliceTo_ok (by simp)] at hb
    simp only [bind_ok, List.take_succ_cons, List.take_zero, FrameControl.setSeqNoSuppression,
      updU16_cons, e, u16bytes_le, ok.injEq] at hb
    rw [← hb] at h
    unfold setIdx at h
    split at h
    · simp only [ok.injEq] at h
      exact ⟨_, h.symm⟩
    · cases h) h1
  obtain ⟨d2, h2, h⟩ := bind_eq_ok.1 h
  obtain ⟨l2, rfl⟩ := key _ _ _ _ (fun a l d h => by
    obtain ⟨_, -, h⟩ := bind_eq_ok.1 h
    obtain ⟨_, -, h⟩ := bind_eq_ok.1 h
    exact keep _ _ _ _ _ _ (by omega) h) h2
  obtain ⟨d3, h3, h⟩ := bind_eq_ok.1 h
  have hend : ∀ l n, DataFrame.addrEnd (o0 :: o1 :: l) = .ok n → 2 ≤ n := by
    intro l n h
    obtain ⟨_, -, h⟩ := bind_eq_ok.1 h
    obtain ⟨_, -, h⟩ := bind_eq_ok.1 h
    obtain ⟨af, -, h⟩ := bind_eq_ok.1 h
    cases af with
    | none => simp only [ok.injEq] at h; omega
    | some af =>
      obtain ⟨_, -, h⟩ := bind_eq_ok.1 h
      simp only [ok.injEq] at h; omega
  obtain ⟨l3, rfl⟩ := key _ _ _ _ (fun a l d h => by
    obtain ⟨n, hn, h⟩ := bind_eq_ok.1 h
    exact keep _ _ _ _ _ _ (hend _ _ hn) h) h3
  refine key _ _ _ _ (fun a l d h => ?_) h
  obtain ⟨_, -, h⟩ := bind_eq_ok.1 h
  obtain ⟨n, hn, h⟩ := bind_eq_ok.1 h
  obtain ⟨n1, hn1, h⟩ := bind_eq_ok.1 h
  obtain ⟨n2, hn2, h⟩ := bind_eq_ok.1 h
  have k0 := hend _ _ hn
  have more : ∀ (c : Out Bool) (x : Out Nat) (n m : Nat), 2 ≤ n →
      (∀ m, x = .ok m → n ≤ m) →
      (do let v ← c; if v then x else .ok n) = .ok m → 2 ≤ m := by
    intro c x n m hn hx h
    obtain ⟨v, -, h⟩ := bind_eq_ok.1 h
    cases v
    · simp only [Bool.false_eq_true, if_false, ok.injEq] at h; omega
    · exact le_trans hn (hx m h)
  have k1 : 2 ≤ n1 := by
    refine more _ _ _ _ k0 (fun m hm => ?_) hn1
    obtain ⟨_, -, hm⟩ := bind_eq_ok.1 hm
    obtain ⟨_, -, hm⟩ := bind_eq_ok.1 hm
    obtain ⟨_, -, hm⟩ := bind_eq_ok.1 hm
    simp only [ok.injEq] at hm; omega
  have k2 : 2 ≤ n2 := by
    refine more _ _ _ _ k1 (fun m hm => ?_) hn2
    obtain ⟨_, -, hm⟩ := bind_eq_ok.1 hm
    obtain ⟨_, -, hm⟩ := bind_eq_ok.1 hm
    obtain ⟨_, -, hm⟩ := bind_eq_ok.1 hm
    simp only [ok.injEq] at hm; omega
  exact keep _ _ _ _ _ _ k2 h

theorem bufferLen_two {f : FrameRepr} {n : Nat} (h : f.bufferLen = .ok n) : 2 ≤ n := by
  obtain ⟨_, -, h⟩ := bind_eq_ok.1 h
  simp only [ok.injEq] at h
  omega

theorem two_octets {b : Bytes} (h : 2 ≤ b.length) : ∃ o0 o1 l, b = o0 :: o1 :: l := by
  match b, h with
  | o0 :: o1 :: l, _ => exact ⟨o0, o1, l, rfl⟩

/-- What is emitted into a buffer of zeros. -/
theorem BuiltFrame.emits {s : Start} {cs : List Call} {f : FrameRepr} (h : BuiltFrame s cs f)
    {n : Nat} (hn : f.bufferLen = .ok n) (b0 b1 : Byte) (l : Bytes) (hl : l.length + 2 = n)
    (hw : emitWord f.frameControl (u16le b0 b1) = emitWord f.frameControl 0) :
    f.emit (b0 :: b1 :: l) = .ok (u16bytes (emitWord f.frameControl 0) ++
      (f.sequenceNumber.toList ++ (addrOctets f ++ tailOctets f))) := by
  obtain ⟨hc, ht, hwr⟩ := h.parts
  rw [frame_bufferLen hc ht] at hn
  simp only [ok.injEq] at hn
  rw [FrameRepr.emit, setFc_old, bind_ok, hw]
  refine emit_rest hc ht ?_ l (by omega)
  rw [← wRepr_eq_spec, u16le_bytes, wRepr_emitWord _ hwr]

/-- **C87**, exactly: the octets emitted for a built frame are those emitted into a buffer of zeros if
and only if the frame control field the buffer held has no flag that the frame has not.  Nothing else
the buffer held matters. -/
theorem C87_exact (s : Start) (cs : List Call) (f : FrameRepr) (n : Nat) (b : Bytes)
    (h : BuiltFrame s cs f) (hn : f.bufferLen = .ok n) (hb : b.length = n) :
    f.emit b = f.emit (List.replicate n 0) ↔ ¬ Stale f.frameControl b := by
  have h2 := bufferLen_two hn
  obtain ⟨b0, b1, l, rfl⟩ := two_octets (b := b) (by omega)
  obtain ⟨m, rfl⟩ : ∃ m, n = m + 2 := ⟨n - 2, by omega⟩
  simp only [List.length_cons] at hb
  have hz : List.replicate (m + 2) (0 : Byte) = 0 :: 0 :: List.replicate m 0 := rfl
  have e0 : u16le 0 0 = 0 := rfl
  have hz' := h.emits hn 0 0 (List.replicate m 0) (by simp) (by rw [e0])
  rw [hz]
  have hs : ¬ Stale f.frameControl (b0 :: b1 :: l) ↔
      emitWord f.frameControl (u16le b0 b1) = emitWord f.frameControl 0 := by
    rw [emitWord_clean_iff]
    constructor
    · intro q i h3 h9 hi
      cases hf : fcFlag f.frameControl i
      · exact absurd ⟨b0, b1, l, i, rfl, h3, h9, hi, hf⟩ q
      · rfl
    · rintro q ⟨_, _, _, i, e, h3, h9, hi, hf⟩
      simp only [List.cons.injEq] at e
      obtain ⟨rfl, rfl, -⟩ := e
      rw [q i h3 h9 hi] at hf
      cases hf
  rw [hs]
  constructor
  · intro q
    rw [hz'] at q
    obtain ⟨l', e⟩ := emit_starts b0 b1 l _ q
    have := congrArg (List.take 2) e
    simp only [u16bytes, List.cons_append, List.nil_append, List.take_succ_cons, List.take_zero,
      List.cons.injEq, and_true] at this
    have k : u16le ((emitWord f.frameControl 0).setWidth 8)
        (((emitWord f.frameControl 0) >>> 8).setWidth 8) =
        u16le ((emitWord f.frameControl (u16le b0 b1)).setWidth 8)
        (((emitWord f.frameControl (u16le b0 b1)) >>> 8).setWidth 8) := by
      rw [this.1, this.2]
    rw [u16le_bytes, u16le_bytes] at k
    exact k.symm
  · intro q
    rw [h.emits hn b0 b1 l (by omega) q, hz']

/-- What **C87** leaves: a buffer that starts with two zeros can hold anything after them. -/
theorem C87_rest_partial (s : Start) (cs : List Call) (f : FrameRepr) (n : Nat) (l : Bytes)
    (h : BuiltFrame s cs f) (hn : f.bufferLen = .ok n) (hb : l.length + 2 = n) :
    f.emit (0 :: 0 :: l) = f.emit (List.replicate n 0) := by
  refine (C87_exact s cs f n _ h hn (by simpa using hb)).2 ?_
  rintro ⟨_, _, _, i, e, h3, h9, hi, -⟩
  simp only [List.cons.injEq] at e
  obtain ⟨rfl, rfl, -⟩ := e
  rw [fcBit_eq] at hi
  exact absurd hi (by rw [show u16le 0 0 = 0 from rfl]; simp)

/-- What the receiver is told otherwise, for any frame at all: each flag is that of the frame or that of
the buffer. -/
theorem C87_flags_are_merged (f : FrameRepr) (b0 b1 : Byte) (l d : Bytes)
    (h : f.emit (b0 :: b1 :: l) = .ok d) : ∃ o0 o1 l', d = o0 :: o1 :: l' ∧
    ∀ i, 3 ≤ i → i ≤ 9 → fcBit o0 o1 i = (fcBit b0 b1 i || fcFlag f.frameControl i) := by
  obtain ⟨l', rfl⟩ := emit_starts b0 b1 l d h
  refine ⟨_, _, l', rfl, fun i h3 h9 => ?_⟩
  rw [fcBit_eq, u16le_bytes, emitWord_flag _ _ i h3 h9, ← fcBit_eq]

/-- A buffer that a frame was emitted into, whatever follows its frame control field, is good for a
built frame if and only if that has all the flags of the first. -/
theorem C87_reuse (s : Start) (cs : List Call) (f g : FrameRepr) (n m : Nat) (o l : Bytes)
    (hn : f.bufferLen = .ok n) (hg : BuiltFrame s cs g) (hm : g.bufferLen = .ok m)
    (he : f.emit (List.replicate n 0) = .ok o) (hl : (o.take 2 ++ l).length = m) :
    g.emit (o.take 2 ++ l) = g.emit (List.replicate m 0) ↔
      ∀ i, fcFlag f.frameControl i = true → fcFlag g.frameControl i = true := by
  rw [C87_exact s cs g m _ hg hm hl]
  have h2 := bufferLen_two hn
  obtain ⟨k, rfl⟩ : ∃ k, n = k + 2 := ⟨n - 2, by omega⟩
  obtain ⟨o0, o1, r, rfl, hfl⟩ := C87_flags_are_merged f 0 0 (List.replicate k 0) o he
  have hfl' : ∀ i, 3 ≤ i → i ≤ 9 → fcBit o0 o1 i = fcFlag f.frameControl i := by
    intro i h3 h9
    rw [hfl i h3 h9, fcBit_eq, show u16le 0 0 = 0 from rfl]
    simp
  have hr : ∀ (r : FrameControlRepr) i, fcFlag r i = true → 3 ≤ i ∧ i ≤ 9 := by
    intro r i h
    unfold fcFlag at h
    split at h <;> first | omega | cases h
  constructor
  · intro q i hi
    obtain ⟨h3, h9⟩ := hr _ i hi
    cases hx : fcFlag g.frameControl i
    · exact absurd ⟨o0, o1, l, i, rfl, h3, h9, by rw [hfl' i h3 h9, hi], hx⟩ q
    · rfl
  · rintro q ⟨_, _, _, i, e, h3, h9, hi, hx⟩
    simp only [List.take_succ_cons, List.take_zero, List.cons_append, List.nil_append,
      List.cons.injEq] at e
    obtain ⟨rfl, rfl, -⟩ := e
    rw [hfl' i h3 h9] at hi
    rw [q i hi] at hx
    cases hx

/-- An immediate acknowledgment, which the medium access controller emits into a buffer that it keeps:
it can. -/
theorem ack_built (n : Byte) : BuiltFrame (.immAck n) []
    ⟨⟨.ack, false, false, false, false, false, false, .absent, .absent, .v2006⟩, some n, none, none,
      none⟩ where
  built := rfl
  addresses := by decide
  ack := fun _ => ⟨rfl, rfl⟩
  elements := fun h => by cases h

/-- Acknowledgment after acknowledgment in the same buffer. -/
example (m : Byte) (l : Bytes) (hl : l.length = 1) : FrameRepr.emit ⟨⟨.ack, false, false, false, false,
      false, false, .absent, .absent, .v2006⟩, some m, none, none, none⟩ (0x02 :: 0x10 :: l) =
    FrameRepr.emit ⟨⟨.ack, false, false, false, false, false, false, .absent, .absent, .v2006⟩, some m,
      none, none, none⟩ (List.replicate 3 0) :=
  (C87_reuse (.immAck m) [] ⟨⟨.ack, false, false, false, false, false, false, .absent, .absent, .v2006⟩,
    some 9, none, none, none⟩ _ 3 3 [0x02, 0x10, 9] l rfl (ack_built m) rfl (by decide +kernel) (by simp [hl])).2
    (fun _ h => h)

/-- A data frame. -/
theorem data_built : BuiltFrame (.data [1, 2]) [.sequenceNumber 7, .dstPanId 0xabcd,
      .dstAddress (.short ⟨[1, 2], rfl⟩), .srcPanId 0xabcd, .srcAddress (.short ⟨[3, 4], rfl⟩)]
    ⟨⟨.data, false, false, false, true, false, false, .short, .short, .v2006⟩, some 7,
      some ⟨some 0xabcd, some (.short ⟨[1, 2], rfl⟩), none, some (.short ⟨[3, 4], rfl⟩)⟩, none,
      some [1, 2]⟩ where
  built := by decide +kernel
  addresses := by decide
  ack := by decide
  elements := fun h => by cases h

/-- A data frame in a buffer that held 0xff in all its octets but the first two. -/
example := C87_rest_partial _ _ _ 11 (List.replicate 9 0xff) data_built rfl rfl

/-- **C87** is false: an acknowledgment emitted into a buffer that held a data frame keeps the flag of
that frame for compressed PAN ids. -/
theorem C87_false : ¬ C87_statement := by
  intro h
  have := h (.immAck 5) [] _ 3 [0x41, 0x88, 0x07] (ack_built 5) rfl rfl
  revert this
  decide +kernel

end Dot15d4.Props
