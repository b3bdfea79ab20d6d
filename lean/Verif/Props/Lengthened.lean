import Verif.Props.Protected
import Verif.Props.Truncated

/-! # C98: protected frames that were cut short or made longer -/

namespace Dot15d4.Props
open Out Spec Polynomial

/-- The full claim of C98: of a protected frame no beginning and no extension is a protected
frame. -/
def C98_statement : Prop := ∀ b e : Bytes, e ≠ [] → FrameWithFcs.new b = .ok b →
  FrameWithFcs.new (b ++ e) = .err

/-- Octets that nobody notices behind a protected frame: none, one zero octet, or a protected
frame. -/
def Unnoticed (e : Bytes) : Prop := e = [] ∨ e = [0] ∨ FrameWithFcs.new e = .ok e

theorem accepted_iff {b : Bytes} (h : 2 ≤ b.length) : FrameWithFcs.new b = .ok b ↔ gen ∣ poly b := by
  rcases C25_accepts_iff b with ⟨-, h1, h2⟩ | ⟨h1, h2⟩
  · exact ⟨fun _ => h1, fun _ => h2⟩
  · refine ⟨fun h' => ?_, fun h' => absurd ⟨h, h'⟩ h1⟩
    rw [h2] at h'
    cases h'

theorem accepted_length {b : Bytes} (h : FrameWithFcs.new b = .ok b) : 2 ≤ b.length := by
  rcases C25_accepts_iff b with ⟨h2, -⟩ | ⟨-, h'⟩
  · exact h2
  · rw [h] at h'; cases h'

theorem poly_append (a b : Bytes) : poly (a ++ b) = poly a * X ^ (8 * b.length) + poly b := by
  rw [poly, bits_append, bitsPoly_append, bits_length]
  rfl

theorem unnoticed_iff (e : Bytes) : Unnoticed e ↔ gen ∣ poly e := by
  match e with
  | [] => exact ⟨fun _ => by simp [poly, txBits, bitsPoly], fun _ => .inl rfl⟩
  | [x] =>
    have hnew : FrameWithFcs.new [x] ≠ .ok [x] := fun h => by
      have := accepted_length h
      simp at this
    constructor
    · rintro (h | h | h)
      · cases h
      · rw [h, poly, bitsPoly_all_false _ (by decide)]
        exact dvd_zero _
      · exact absurd h hnew
    · intro h
      have hd : (poly [x]).degree < 16 := by
        refine lt_trans (natDegree_bitsPoly (txBits [x])) ?_
        rw [bits_length]
        exact_mod_cast (by decide : 8 * 1 < 16)
      have h0 := eq_zero_of_gen_dvd h hd
      have h1 : bitsPoly (txBits [x]) = bitsPoly (txBits [0]) := by
        rw [bitsPoly_all_false (txBits [0]) (by decide)]
        exact h0
      exact .inr (.inl (bits_inj (bitsPoly_inj (by rw [bits_length, bits_length]; rfl) h1)))
  | x :: y :: l =>
    rw [← accepted_iff (by simp)]
    constructor
    · rintro (h | h | h)
      · cases h
      · cases h
      · exact h
    · exact fun h => .inr (.inr h)

/-- **C98**, exactly: what is added behind a protected frame, or cut off at its end, goes unnoticed
if and only if it is a protected frame itself or a single zero octet. -/
theorem C98_behind (b e : Bytes) (h2 : 2 ≤ b.length) :
    (FrameWithFcs.new b = .ok b →
      (FrameWithFcs.new (b ++ e) = .ok (b ++ e) ↔ Unnoticed e)) ∧
    (FrameWithFcs.new (b ++ e) = .ok (b ++ e) → (FrameWithFcs.new b = .ok b ↔ Unnoticed e)) := by
  rw [accepted_iff (b := b) h2, accepted_iff (b := b ++ e) (by simp; omega), unnoticed_iff,
    poly_append]
  constructor
  · intro h
    exact dvd_add_right (h.mul_right _)
  · intro h
    constructor
    · intro hb
      exact (dvd_add_right (hb.mul_right _)).mp h
    · intro he
      exact (gen_coprime_X _).dvd_of_dvd_mul_right ((dvd_add_left he).mp h)

/-- The same holds at the front: the register starts at zero. -/
theorem C98_front (b e : Bytes) (h2 : 2 ≤ b.length) :
    (FrameWithFcs.new b = .ok b →
      (FrameWithFcs.new (e ++ b) = .ok (e ++ b) ↔ Unnoticed e)) ∧
    (FrameWithFcs.new (e ++ b) = .ok (e ++ b) → (FrameWithFcs.new b = .ok b ↔ Unnoticed e)) := by
  rw [accepted_iff (b := b) h2, accepted_iff (b := e ++ b) (by simp; omega), unnoticed_iff,
    poly_append]
  constructor
  · intro h
    rw [dvd_add_left h]
    exact ⟨(gen_coprime_X _).dvd_of_dvd_mul_right, fun h => h.mul_right _⟩
  · intro h
    constructor
    · intro hb
      exact (gen_coprime_X _).dvd_of_dvd_mul_right ((dvd_add_left hb).mp h)
    · intro he
      exact (dvd_add_right (he.mul_right _)).mp h

theorem unnoticed_zeros (n : Nat) : Unnoticed (List.replicate n 0) := by
  rw [unnoticed_iff, poly, bitsPoly_all_false]
  · exact dvd_zero _
  · intro x hx
    simp only [txBits, List.mem_flatMap] at hx
    obtain ⟨a, ha, hx⟩ := hx
    rw [List.eq_of_mem_replicate ha] at hx
    revert x
    decide

/-- So the zero octets with which a receive buffer is filled up go unnoticed, however many they are,
and what is then taken as the content of the frame ends with the frame check sequence of the real
frame and the zeros. -/
theorem C98_padding (c : Bytes) (n : Nat) :
    let b := c ++ u16bytes (crc16 c)
    FrameWithFcs.new b = .ok b ∧
    FrameWithFcs.new (b ++ List.replicate n 0) = .ok (b ++ List.replicate n 0) ∧
    FrameWithFcs.new (List.replicate n 0 ++ b) = .ok (List.replicate n 0 ++ b) ∧
    FrameWithFcs.content b = .ok c ∧
    (2 ≤ n → FrameWithFcs.content (b ++ List.replicate n 0) =
      .ok (b ++ List.replicate (n - 2) 0)) ∧
    FrameWithFcs.content (List.replicate n 0 ++ b) = .ok (List.replicate n 0 ++ c) := by
  intro b
  have hb : FrameWithFcs.new b = .ok b := ((C25_append c _).2.1 rfl).1
  have h2 := accepted_length hb
  refine ⟨hb, ((C98_behind b _ h2).1 hb).mpr (unnoticed_zeros n),
    ((C98_front b _ h2).1 hb).mpr (unnoticed_zeros n), (C25_append c _).1, fun hn => ?_, ?_⟩
  · rw [((C25_unchecked _).2 (by rw [List.length_append]; omega)).1]
    congr 1
    rw [List.length_append, List.length_replicate, List.take_append,
      List.take_of_length_le (by omega), List.take_replicate]
    congr 2
    omega
  · rw [← List.append_assoc]
    exact (C25_append _ _).1

/-- Two protected frames in one buffer are a protected frame. -/
theorem C98_concatenated (b e : Bytes) (hb : FrameWithFcs.new b = .ok b)
    (he : FrameWithFcs.new e = .ok e) : FrameWithFcs.new (b ++ e) = .ok (b ++ e) :=
  ((C98_behind b e (accepted_length hb)).1 hb).mpr (.inr (.inr he))

/-- **C98**, what holds (`_partial`: up to two octets, not all of them zero): such a cut, and such an
addition at either end, is noticed. -/
theorem C98_noticed_partial (b e : Bytes) (h2 : 2 ≤ b.length) (hl : e.length ≤ 2)
    (hz : ∃ x ∈ e, x ≠ 0) :
    (FrameWithFcs.new b = .ok b →
      FrameWithFcs.new (b ++ e) = .err ∧ FrameWithFcs.new (e ++ b) = .err) ∧
    (FrameWithFcs.new (b ++ e) = .ok (b ++ e) ∨ FrameWithFcs.new (e ++ b) = .ok (e ++ b) →
      FrameWithFcs.new b = .err) := by
  have hu : ¬ Unnoticed e := by
    rw [unnoticed_iff]
    intro h
    have hd : (poly e).degree < 16 := by
      refine lt_of_lt_of_le (natDegree_bitsPoly (txBits e)) ?_
      rw [bits_length]
      exact_mod_cast (by omega : 8 * e.length ≤ 16)
    have h0 := eq_zero_of_gen_dvd h hd
    have h1 : bitsPoly (txBits e) = bitsPoly (txBits (List.replicate e.length 0)) := by
      rw [bitsPoly_all_false (txBits (List.replicate e.length 0))]
      · exact h0
      · intro x hx
        simp only [txBits, List.mem_flatMap] at hx
        obtain ⟨a, ha, hx⟩ := hx
        rw [List.eq_of_mem_replicate ha] at hx
        revert x
        decide
    have h2 := bits_inj (bitsPoly_inj (by rw [bits_length, bits_length, List.length_replicate]) h1)
    obtain ⟨x, hx, hne⟩ := hz
    rw [h2] at hx
    exact hne (List.eq_of_mem_replicate hx)
  have err : ∀ {x : Bytes}, ¬ FrameWithFcs.new x = .ok x → FrameWithFcs.new x = .err := by
    intro x hx
    rcases C25_accepts_iff x with ⟨-, -, h⟩ | ⟨-, h⟩
    · exact absurd h hx
    · exact h
  obtain ⟨k1, k2⟩ := C98_behind b e h2
  obtain ⟨k3, k4⟩ := C98_front b e h2
  refine ⟨fun h => ⟨err fun h' => hu ((k1 h).mp h'), err fun h' => hu ((k3 h).mp h')⟩, ?_⟩
  rintro (h | h)
  · exact err fun h' => hu ((k2 h).mp h')
  · exact err fun h' => hu ((k4 h).mp h')

/-- An acknowledgement with its frame check sequence; filled up with zeros; sent twice in one buffer;
cut by one octet. -/
example : FrameWithFcs.new [0x02, 0, 7, 0x07, 0xc1] = .ok [0x02, 0, 7, 0x07, 0xc1] ∧
    FrameWithFcs.new [0x02, 0, 7, 0x07, 0xc1, 0, 0, 0] = .ok [0x02, 0, 7, 0x07, 0xc1, 0, 0, 0] ∧
    FrameWithFcs.content [0x02, 0, 7, 0x07, 0xc1, 0, 0, 0] = .ok [0x02, 0, 7, 0x07, 0xc1, 0] ∧
    FrameWithFcs.new [0x02, 0, 7, 0x07, 0xc1, 0x02, 0, 7, 0x07, 0xc1] =
      .ok [0x02, 0, 7, 0x07, 0xc1, 0x02, 0, 7, 0x07, 0xc1] ∧
    FrameWithFcs.new [0x02, 0, 7, 0x07] = .err := by
  decide +kernel

/-- **C98** is false: zero octets behind a frame are not noticed. -/
theorem C98_false : ¬ C98_statement := by
  intro h
  have h0 := C98_padding [2, 0, 7] 1
  have := h _ [0] (by simp) h0.1
  rw [show ([0] : Bytes) = List.replicate 1 0 from rfl, h0.2.1] at this
  cases this

end Dot15d4.Props
