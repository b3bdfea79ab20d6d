import Verif.Props.Crc
import Verif.Props.Emit
import Verif.Props.EndToEnd

/-!
# C85: a frame with its check sequence arrives as it was built, or not at all
-/

namespace Dot15d4.Props
open Out Spec

/-- The errors the check sequence is made for: up to three flipped bits, an odd number of flipped
bits, or any flips within sixteen consecutive bits; in particular no error. -/
def Detectable (b b' : Bytes) : Prop :=
  b'.length = b.length ∧
    ((flips b b').length ≤ 3 ∨ (flips b b').length % 2 = 1 ∨
      ∃ s, ∀ k, txBit b k ≠ txBit b' k → s ≤ k ∧ k < s + 16)

theorem flips_nil {b b' : Bytes} (hl : b'.length = b.length) (h : (flips b b').length = 0) (k : Nat) :
    txBit b k = txBit b' k := by
  rw [List.length_eq_zero_iff, flips, List.filter_eq_nil_iff] at h
  by_cases hk : k < 8 * b.length
  · simpa using h k (by simpa using hk)
  · rw [txBit, txBit, List.getElem?_eq_none (by rw [bits_length]; omega),
      List.getElem?_eq_none (by rw [bits_length]; omega)]

/-- **C85** for any octets: a frame with its check sequence that suffers such an error is rejected,
unless there was no error. -/
theorem C85_unchanged_or_rejected (d b b' : Bytes) (hb : FrameWithFcs.new b = .ok b)
    (hd : FrameWithFcs.content b = .ok d) (h127 : b.length ≤ 127) (he : Detectable b b') :
    (b' = b ∧ FrameWithFcs.new b' = .ok b' ∧ FrameWithFcs.content b' = .ok d ∧
      FrameWithFcs.frame b' = Frame.new d) ∨
    (b' ≠ b ∧ FrameWithFcs.new b' = .err) := by
  obtain ⟨hl, he⟩ := he
  by_cases hne : b' = b
  · refine .inl ⟨hne, by rw [hne]; exact hb, by rw [hne]; exact hd, ?_⟩
    rw [hne, FrameWithFcs.frame, hd]; rfl
  · refine .inr ⟨hne, ?_⟩
    rcases he with h3 | ho | ⟨s, hs⟩
    · by_cases h0 : (flips b b').length = 0
      · exact C26_burst b b' b hb hl hne 0 fun k hk => absurd (flips_nil hl h0 k) hk
      · exact C55_hamming b b' b hb hl h127 (by omega) h3
    · exact C55_odd b b' b hb hl ho
    · exact C26_burst b b' b hb hl hne s hs

/-- **C85.** Take any frame the builder gives, written by `emit`, with its check sequence, no longer
than a frame may be, and flip bits on the way: up to three, or an odd number, or any number within
sixteen consecutive ones.  The receiver rejects the frame, or nothing was flipped and it reads the
frame that was built.  (The hypotheses exclude the histories for which the builder's frames cannot be emitted, see C29.) -/
theorem C85_built (s : Start) (cs : List Spec.Call) (f : FrameRepr)
    (h : build s cs = .ok f) (ha : NoAbsent cs)
    (hi : IsImmAck s cs → lastOf Call.dst? cs = none ∧ lastOf Call.src? cs = none)
    (hel : wantsElements cs = true →
      ElementsOk ⟨wantedHeader cs, wantedElements cs⟩ ∧ wantedPayload s cs = none)
    {n : Nat} {d : Bytes} (hn : f.bufferLen = .ok n)
    (hd : FrameRepr.emit f (List.replicate n 0) = .ok d) (h125 : n ≤ 125)
    (b b' : Bytes) (hb : FrameWithFcs.new b = .ok b) (hc : FrameWithFcs.content b = .ok d)
    (he : Detectable b b') :
    (b' = b ∧ FrameWithFcs.new b' = .ok b' ∧ FrameWithFcs.content b' = .ok d ∧
      DataFrame.new d = .ok d ∧ FrameRepr.parse d = .ok (rereadFrame f)) ∨
    (b' ≠ b ∧ FrameWithFcs.new b' = .err) := by
  obtain ⟨n', d', e1, e2, e3, e4, e5⟩ := C29_roundtrip_partial s cs f h ha hi hel
  rw [hn] at e1
  cases e1
  rw [hd] at e2
  cases e2
  have hlen : b.length ≤ 127 := by
    rcases (by omega : b.length < 2 ∨ 2 ≤ b.length) with h2 | h2
    · omega
    · rw [((C25_unchecked b).2 h2).1] at hc
      cases hc
      rw [List.length_take] at e3
      omega
  rcases C85_unchanged_or_rejected d b b' hb hc hlen he with ⟨h1, h2, h3, -⟩ | h
  · exact .inl ⟨h1, h2, h3, e4 (by omega), e5⟩
  · exact .inr h

/-- There is such a buffer for every frame, and only one: the octets followed by their check
sequence. -/
theorem C85_exists_unique (d : Bytes) :
    ∃ b, (FrameWithFcs.new b = .ok b ∧ FrameWithFcs.content b = .ok d) ∧
      ∀ c, FrameWithFcs.new c = .ok c ∧ FrameWithFcs.content c = .ok d → c = b := by
  refine ⟨d ++ u16bytes (crc16 d), ⟨((C25_append d _).2.1 rfl).1, (C25_append d _).1⟩, ?_⟩
  rintro c ⟨h1, h2⟩
  by_cases hl : c.length < 2
  · rw [((C25_unchecked c).1 hl).1] at h2; cases h2
  · obtain ⟨e1, ⟨w, -, e2⟩, -⟩ := (C25_unchecked c).2 (by omega)
    rw [e1] at h2
    cases h2
    have e : c = c.take (c.length - 2) ++ u16bytes w := by rw [← e2, List.take_append_drop]
    generalize c.take (c.length - 2) = d at e
    subst e
    by_cases hw : w = crc16 d
    · rw [hw]
    · rw [(C25_append d w).2.2 hw] at h1; cases h1

/-- **C85** is sharp: some four flips, spread over seventeen bits, turn one frame into another. -/
theorem C85_four_flips : ∃ b b' : Bytes, FrameWithFcs.new b = .ok b ∧ FrameWithFcs.new b' = .ok b' ∧
    b'.length = b.length ∧ b.length ≤ 127 ∧ flips b b' = [12, 16, 23, 28] := by
  refine ⟨[0x02, 0x10, 0x37, 0x15, 0x65], [0x02, 0x00, 0xb6, 0x05, 0x65], ?_⟩
  decide +kernel

/-- Non-vacuity: a data frame built, emitted and protected; two flipped bits. -/
example : ∃ f d, build (.data [1, 2, 3]) [.sequenceNumber 7, .dstPanId 0xabcd, .dstAddress (.short ⟨[1, 2], rfl⟩)] = .ok f ∧
    f.bufferLen = .ok 10 ∧ FrameRepr.emit f (List.replicate 10 0) = .ok d ∧
    NoAbsent [.sequenceNumber 7, .dstPanId 0xabcd, .dstAddress (.short ⟨[1, 2], rfl⟩)] ∧
    FrameWithFcs.new (d ++ u16bytes (crc16 d)) = .ok (d ++ u16bytes (crc16 d)) := by
  refine ⟨_, _, rfl, rfl, rfl, by simp [NoAbsent], ?_⟩
  exact ((C25_append _ _).2.1 rfl).1

example : Detectable [0x02, 0x10, 0x37, 0x15, 0x65] [0x03, 0x10, 0x37, 0x15, 0xe5] ∧
    FrameWithFcs.new [0x03, 0x10, 0x37, 0x15, 0xe5] = .err :=
  ⟨⟨rfl, .inl (by decide +kernel)⟩, by decide +kernel⟩

end Dot15d4.Props
