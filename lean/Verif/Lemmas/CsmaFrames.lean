import Verif.Spec.Csma
import Verif.Lemmas.Emit

/-!
# Headers of accepted frames
-/

namespace Dot15d4.Csma
open Dot15d4 Out Spec Props

/-- Every accepted frame has a header. -/
theorem exists_header {b : Bytes} (h : Acceptable b) :
    ∃ H : Header, b = H.bytes ∧ H.WellFormed := by
  obtain ⟨h2, h127, o0, o1, l, rfl, hlen, hsec, hty, hv, hd, hs⟩ := h
  obtain ⟨seq, hseq, hl⟩ : ∃ seq : Option Byte, seq.isSome = !(decodeFc o0 o1).seqNoSuppression ∧
      l = seq.toList ++ afterSeq o0 o1 l := by
    cases hsup : (decodeFc o0 o1).seqNoSuppression with
    | true => exact ⟨none, by simp, by simp [afterSeq, hsup]⟩
    | false =>
      have := hlen hsup
      simp at this
      match l, this with
      | x :: l, _ => exact ⟨some x, by simp, by simp [afterSeq, hsup]⟩
  cases hn : AddressingFields.new (afterSeq o0 o1 l) (o0 :: o1 :: []) with
  | ok af =>
    obtain ⟨p, dp, d, sp, s, rest, e1, e2, e3, e4, e5, e6, -⟩ := C05_layout _ _ _ _ hd hs _ hn
    refine ⟨⟨o0, o1, seq, some ⟨dp, d, sp, s⟩, rest⟩, ?_, ?_⟩
    · rw [hl, e6]; simp [Header.bytes, addressingBytes, Addressing.bytes]
    · refine ⟨hseq, ?_, e4, e5⟩
      simp only [e1, e2, e3]
  | err =>
    refine ⟨⟨o0, o1, seq, none, afterSeq o0 o1 l⟩, ?_, hseq, ?_⟩
    · conv_lhs => rw [hl]
      simp [Header.bytes, addressingBytes]
    · intro p hp
      rw [C05_new_iff _ _ _ _ hd hs] at hn
      simp only at hp
      rw [hp] at hn
      simp only at hn
      split at hn
      · cases hn
      · simpa using by omega
  | panic =>
    rw [C05_new_iff _ _ _ _ hd hs] at hn
    split at hn
    · cases hn
    · split at hn <;> cases hn

section
variable {H : Header}

theorem header_fc : DataFrame.frameControl H.bytes = .ok [H.o0, H.o1] := by
  simp [Header.bytes]

theorem header_afterSeq (hw : H.WellFormed) (l : Bytes) :
    afterSeq H.o0 H.o1 (H.seq.toList ++ l) = l := by
  have := hw.1
  simp only [Header.fc] at this
  cases hs : H.seq <;> simp [hs] at this <;> simp [afterSeq, this]

theorem header_seq (hw : H.WellFormed) : DataFrame.sequenceNumber H.bytes = .ok H.seq := by
  have := hw.1
  simp only [Header.fc] at this
  simp only [DataFrame.sequenceNumber, header_fc, bind_ok, fc_sup]
  cases hs : H.seq with
  | none => simp [hs] at this; simp [this]
  | some x => simp [hs] at this; simp [this, Header.bytes, hs]

theorem header_addressing (hw : H.WellFormed) (ha : Acceptable H.bytes) :
    DataFrame.addressing H.bytes = .ok (H.addressing.map fun a =>
      ⟨a.bytes ++ H.rest, [H.o0, H.o1]⟩) := by
  obtain ⟨h2, h127, o0, o1, l, e, hlen, hsec, hty, hv, hd, hs⟩ := ha
  have e' : H.bytes = H.o0 :: H.o1 :: (H.seq.toList ++ (addressingBytes H.addressing ++ H.rest)) := by
    simp [Header.bytes]
  obtain ⟨rfl, rfl, rfl⟩ : H.o0 = o0 ∧ H.o1 = o1 ∧
      (H.seq.toList ++ (addressingBytes H.addressing ++ H.rest)) = l := by
    have := e'.symm.trans e; simpa using this
  rw [e', df_addressing, header_afterSeq hw, C05_new_iff _ _ _ _ hd hs]
  · have hw2 := hw.2
    cases hadr : H.addressing with
    | none =>
      simp only [hadr] at hw2
      cases hp : fcPans H.o0 H.o1 with
      | none => simp
      | some p =>
        have := hw2 p hp
        simp [addressingBytes, Nat.not_le.mpr this]
    | some a =>
      simp only [hadr] at hw2
      obtain ⟨h1, h2, h3⟩ := hw2
      have hl : fcAddrLen H.o0 H.o1 ⟨a.dstPan.isSome, a.srcPan.isSome⟩ ≤
          (addressingBytes (some a) ++ H.rest).length := by
        simp only [Header.fc] at h2 h3
        simp only [fcAddrLen, ← h2, ← h3, List.length_append, addressingBytes, Addressing.bytes,
          addressing_length]
        omega
      simp only [addressingBytes] at hl ⊢
      simp only [h1, hl, if_true, toOption, Option.map_some]
  · intro hsup
    have := hlen hsup
    have e3 := congrArg List.length e
    simp only [List.length_cons] at e3
    omega

/-- Reading the addressing fields of a header. -/
theorem header_read (hw : H.WellFormed) {a : Addressing} (ha : H.addressing = some a)
    (hacc : Acceptable H.bytes) :
    let af : AddressingFields := ⟨a.bytes ++ H.rest, [H.o0, H.o1]⟩
    af.dstPanId = .ok a.dstPan ∧ af.dstAddress = .ok (some a.dst) ∧ af.srcPanId = .ok a.srcPan ∧
      af.srcAddress = .ok (some a.src) := by
  have hw2 := hw.2
  simp only [ha] at hw2
  obtain ⟨h1, h2, h3⟩ := hw2
  have hd : (decodeFc H.o0 H.o1).dstMode ≠ .unknown := by
    simp only [Header.fc] at h2; rw [← h2]; exact a.dst.mode_ne_unknown
  have hs : (decodeFc H.o0 H.o1).srcMode ≠ .unknown := by
    simp only [Header.fc] at h3; rw [← h3]; exact a.src.mode_ne_unknown
  have hl : (Spec.addressing a.dstPan a.dst a.srcPan a.src).length ≤ (a.bytes ++ H.rest).length := by
    simp [Addressing.bytes]
  obtain ⟨b', af, e1, e2, e3, e4, e5⟩ := C06_roundtrip (a.bytes ++ H.rest) a.dstPan a.srcPan a.dst
    a.src H.o0 H.o1 [] hl h2 h3 h1
  rw [C06_write _ _ _ _ _ hl] at e1
  have hb : b' = a.bytes ++ H.rest := by
    cases e1
    simp [Addressing.bytes]
  subst hb
  have hr := header_addressing hw hacc
  have hc : AddressingFields.new (a.bytes ++ H.rest) [H.o0, H.o1] = .ok af → af = ⟨a.bytes ++ H.rest, [H.o0, H.o1]⟩ := by
    intro h
    rw [C05_new_iff _ _ _ _ hd hs, h1] at h
    simp only at h
    split at h <;> simp_all
  have := hc e3
  subst this
  simp only [AddressingFieldsRepr.parse, bind_eq_ok] at e4
  obtain ⟨x1, y1, x2, y2, x3, y3, x4, y4, e⟩ := e4
  simp only [Out.ok.injEq, AddressingFieldsRepr.mk.injEq] at e
  obtain ⟨rfl, rfl, rfl, rfl⟩ := e
  exact ⟨y1, y2, y3, y4⟩

theorem header_dst (hw : H.WellFormed) (hacc : Acceptable H.bytes) :
    dstAddressOf H.bytes = .ok (H.addressing.map Addressing.dst) := by
  rw [dstAddressOf, header_addressing hw hacc]
  cases ha : H.addressing with
  | none => simp
  | some a => simp [(header_read hw ha hacc).2.1]

/-- The frame control field of an accepted frame names a known type, version and addressing
modes. -/
theorem header_known (hacc : Acceptable H.bytes) : H.fc.frameType ≠ .unknown ∧
    H.fc.frameVersion ≠ .unknown ∧ H.fc.dstMode ≠ .unknown ∧ H.fc.srcMode ≠ .unknown ∧
    H.fc.securityEnabled = false := by
  obtain ⟨h2, h127, o0, o1, l, e, hlen, hsec, hty, hv, hd, hs⟩ := hacc
  obtain ⟨rfl, rfl⟩ : H.o0 = o0 ∧ H.o1 = o1 := by
    simp [Header.bytes] at e; exact ⟨e.1, e.2.1⟩
  exact ⟨hty, hv, hd, hs, hsec⟩

theorem new_header (hacc : Acceptable H.bytes) : DataFrame.new H.bytes = .ok H.bytes := by
  rcases C09_new H.bytes with ⟨_, h⟩ | ⟨h, _⟩
  · exact h
  · exact absurd hacc h

theorem new_not {b : Bytes} (h : ¬ Acceptable b) : DataFrame.new b = .err := by
  rcases C09_new b with ⟨h', _⟩ | ⟨_, h⟩
  · exact absurd h' h
  · exact h

end

end Dot15d4.Csma
