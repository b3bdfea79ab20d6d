import Verif.Lemmas.Crc
import Mathlib.RingTheory.Coprime.Lemmas
import Mathlib.Algebra.Polynomial.Eval.Defs

/-! # C25, C26, C27, C55: the frame check sequence -/

namespace Dot15d4.Props
open Out Spec Polynomial

/-! ## C25 -/

theorem split_last_two {b : Bytes} (h : 2 ≤ b.length) : ∃ c b0 b1, b = c ++ [b0, b1] := by
  refine ⟨b.take (b.length - 2), b[b.length - 2], b[b.length - 1], ?_⟩
  conv => lhs; rw [← List.take_append_drop (b.length - 2) b]
  congr 1
  rw [List.drop_eq_getElem_cons (by omega), List.drop_eq_getElem_cons (by omega)]
  simp [show b.length - 2 + 1 = b.length - 1 by omega, show b.length - 1 + 1 = b.length by omega]

theorem u16bytes_u16le (b0 b1 : Byte) : u16bytes (u16le b0 b1) = [b0, b1] := by
  simp only [u16bytes, u16le, List.cons.injEq, and_true]
  constructor <;>
  · apply BitVec.eq_of_getLsbD_eq
    intro i hi
    interval_cases i <;> simp [-BitVec.getLsbD_eq_getElem]

theorem content_append (c : Bytes) (b0 b1 : Byte) :
    FrameWithFcs.content (c ++ [b0, b1]) = .ok c := by
  simp [FrameWithFcs.content, sliceTo]

theorem new_append (c : Bytes) (b0 b1 : Byte) : FrameWithFcs.new (c ++ [b0, b1]) =
    if u16le b0 b1 = crc16 c then .ok (c ++ [b0, b1]) else .err := by
  have hf : FrameWithFcs.fcs (c ++ [b0, b1]) = .ok (u16le b0 b1) := by
    simp [FrameWithFcs.fcs, idx]
  have hl : FrameWithFcs.checkLen (c ++ [b0, b1]) = true := by simp [FrameWithFcs.checkLen]
  simp only [FrameWithFcs.new, hl, if_true, FrameWithFcs.checkFcs, FrameWithFcs.calculateFcs,
    content_append, hf, bind_ok]
  by_cases h : u16le b0 b1 = crc16 c
  · simp [h]
  · have : (crc16 c == u16le b0 b1) = false := by simpa using fun e => h e.symm
    simp [h, this]

/-- **C25**.  `FrameWithFcs::new` accepts a byte string iff it has at least two bytes and its
polynomial is divisible by the generator; otherwise it returns an error. -/
theorem C25_accepts_iff (b : Bytes) :
    (2 ≤ b.length ∧ gen ∣ poly b ∧ FrameWithFcs.new b = .ok b) ∨
    (¬ (2 ≤ b.length ∧ gen ∣ poly b) ∧ FrameWithFcs.new b = .err) := by
  by_cases h : 2 ≤ b.length
  · obtain ⟨c, b0, b1, rfl⟩ := split_last_two h
    have hp : gen ∣ poly (c ++ [b0, b1]) ↔ u16le b0 b1 = crc16 c := by
      rw [← gen_dvd_iff, u16bytes_u16le]
    rw [hp, new_append]
    by_cases he : u16le b0 b1 = crc16 c
    · exact .inl ⟨h, he, if_pos he⟩
    · exact .inr ⟨fun x => he x.2, if_neg he⟩
  · refine .inr ⟨fun x => h x.1, ?_⟩
    have : FrameWithFcs.checkLen b = false := by simp [FrameWithFcs.checkLen]; omega
    simp [FrameWithFcs.new, this]

/-- The computed check sequence is the remainder of the content times `x^16`: the unique polynomial
of degree below 16 congruent to it modulo the generator. -/
theorem C25_remainder (c : Bytes) :
    bitsPoly (txBits (u16bytes (crc16 c))) = (poly c * X ^ 16) %ₘ gen ∧
    FrameWithFcs.calculateFcs (c ++ u16bytes (crc16 c)) = .ok (crc16 c) := by
  constructor
  · rw [bits_u16]
    obtain ⟨q, hq⟩ := gen_dvd_crc16 c
    have := div_modByMonic_unique (f := poly c * X ^ 16) (g := gen) (-q) (bitsPoly (regBits (crc16 c))) gen_monic
      ⟨by rw [mul_neg, ← hq, regPoly]; ring, by rw [gen_degree]; exact natDegree_bitsPoly _⟩
    exact this.2.symm
  · simp [FrameWithFcs.calculateFcs, u16bytes, content_append]

/-- Content followed by its check sequence is accepted and read back; any other check sequence is
rejected. -/
theorem C25_append (c : Bytes) (w : BitVec 16) :
    FrameWithFcs.content (c ++ u16bytes w) = .ok c ∧
    (w = crc16 c → FrameWithFcs.new (c ++ u16bytes w) = .ok (c ++ u16bytes w) ∧
      FrameWithFcs.frame (c ++ u16bytes w) = Frame.new c) ∧
    (w ≠ crc16 c → FrameWithFcs.new (c ++ u16bytes w) = .err) := by
  have hu : u16le (w.setWidth 8) ((w >>> 8).setWidth 8) = w := by
    apply BitVec.eq_of_getLsbD_eq
    intro i hi
    unfold u16le
    interval_cases i <;> simp [-BitVec.getLsbD_eq_getElem]
  refine ⟨content_append _ _ _, fun h => ⟨?_, ?_⟩, fun h => ?_⟩
  · rw [u16bytes, new_append, hu, if_pos h]
  · simp [u16bytes, FrameWithFcs.frame, content_append]
  · rw [u16bytes, new_append, hu, if_neg h]

/-- **C25** without the checks (`new_unchecked`): of fewer than two bytes every reader panics; of
two or more `content`, `fcs`, `calculate_fcs` and `check_fcs` return, and the last says exactly
whether `new` accepts. -/
theorem C25_unchecked (b : Bytes) :
    (b.length < 2 → FrameWithFcs.content b = .panic ∧ FrameWithFcs.fcs b = .panic ∧
      FrameWithFcs.calculateFcs b = .panic ∧ FrameWithFcs.checkFcs b = .panic ∧
      FrameWithFcs.frame b = .panic) ∧
    (2 ≤ b.length → FrameWithFcs.content b = .ok (b.take (b.length - 2)) ∧
      (∃ w, FrameWithFcs.fcs b = .ok w ∧ b.drop (b.length - 2) = u16bytes w) ∧
      FrameWithFcs.calculateFcs b = .ok (crc16 (b.take (b.length - 2))) ∧
      ∃ r, FrameWithFcs.checkFcs b = .ok r ∧ (r = true ↔ FrameWithFcs.new b = .ok b)) := by
  refine ⟨fun h => ?_, fun h => ?_⟩
  · simp [FrameWithFcs.content, FrameWithFcs.fcs, FrameWithFcs.calculateFcs,
      FrameWithFcs.checkFcs, FrameWithFcs.frame, h]
  · have hd : (b.drop (b.length - 2)).length = 2 := by simp; omega
    match hb : b.drop (b.length - 2), hd with
    | [b0, b1], _ =>
      have e : b = b.take (b.length - 2) ++ [b0, b1] := by rw [← hb, List.take_append_drop]
      generalize b.take (b.length - 2) = c at e
      subst e
      have hf : FrameWithFcs.fcs (c ++ [b0, b1]) = .ok (u16le b0 b1) := by
        simp [FrameWithFcs.fcs, idx]
      refine ⟨content_append c b0 b1, ⟨_, hf, (u16bytes_u16le b0 b1).symm⟩, ?_, ?_⟩
      · simp [FrameWithFcs.calculateFcs, content_append]
      · refine ⟨crc16 c == u16le b0 b1, ?_, ?_⟩
        · simp [FrameWithFcs.checkFcs, FrameWithFcs.calculateFcs, content_append, hf]
        · rw [new_append]
          by_cases hw : u16le b0 b1 = crc16 c
          · rw [if_pos hw, hw]; simp
          · rw [if_neg hw]; simpa using fun e => hw e.symm

/-- The check value of the algorithm ("123456789"). -/
example : crc16 [0x31, 0x32, 0x33, 0x34, 0x35, 0x36, 0x37, 0x38, 0x39] = 0x2189#16 := by decide +kernel

example : FrameWithFcs.new [0x02, 0x00, 0x01, 0x6b, 0x36] = .err := by decide +kernel

/-! ## C27 -/

theorem crcBits_xor (n : Nat) (a b : BitVec 16) :
    crcBits n (a ^^^ b) = crcBits n a ^^^ crcBits n b := by
  induction n generalizing a b with
  | zero => rfl
  | succ n ih => simp only [crcBits, crcBit_xor, ih]

theorem crc16_xor_aux : ∀ (a b : Bytes) (c d : BitVec 16), a.length = b.length →
    (List.zipWith (· ^^^ ·) a b).foldl crcByte (c ^^^ d) = a.foldl crcByte c ^^^ b.foldl crcByte d
  | [], [], _, _, _ => rfl
  | x :: a, y :: b, c, d, h => by
    simp only [List.zipWith_cons_cons, List.foldl_cons]
    rw [← crc16_xor_aux a b _ _ (by simpa using h)]
    congr 1
    simp only [crcByte]
    rw [← crcBits_xor]
    congr 1
    rw [BitVec.setWidth_xor]
    ac_rfl

/-- **C27**.  The check sequence is linear. -/
theorem C27_linear (a b : Bytes) (h : a.length = b.length) :
    crc16 (List.zipWith (· ^^^ ·) a b) = crc16 a ^^^ crc16 b := by
  have := crc16_xor_aux a b 0#16 0#16 h
  simpa [crc16] using this

example : crc16 (List.zipWith (· ^^^ ·) [1, 2, 3] [7, 7, 9]) ≠ 0#16 := by decide +kernel

/-! ## C26 -/

theorem bitsPoly_zip : ∀ (a b : List Bool), a.length = b.length →
    bitsPoly (List.zipWith xor a b) = bitsPoly a + bitsPoly b
  | [], [], _ => by simp [bitsPoly]
  | x :: a, y :: b, h => by
    have hl : a.length = b.length := by simpa using h
    simp only [List.zipWith_cons_cons, bitsPoly, bitsPoly_zip a b hl, List.length_zipWith, hl, gf_xor,
      map_add, Nat.min_self]
    ring

theorem bitsPoly_all_false (l : List Bool) (h : ∀ x ∈ l, x = false) : bitsPoly l = 0 := by
  induction l with
  | nil => rfl
  | cons x l ih =>
    simp only [bitsPoly, h x (by simp), gf_false, map_zero, zero_mul, zero_add]
    exact ih fun y hy => h y (by simp [hy])

theorem gen_coprime_X (n : Nat) : IsCoprime gen (X ^ n) := by
  apply IsCoprime.pow_right
  refine ⟨1, - (X ^ 15 + X ^ 11 + X ^ 4), ?_⟩
  rw [gen]; ring

theorem bits_inj : ∀ {a b : Bytes}, txBits a = txBits b → a = b
  | [], [], _ => rfl
  | [], y :: b, h => by simp [txBits, byteBits] at h
  | x :: a, [], h => by simp [txBits, byteBits] at h
  | x :: a, y :: b, h => by
    have h' : byteBits x ++ txBits a = byteBits y ++ txBits b := by simpa [txBits] using h
    obtain ⟨h1, h2⟩ := List.append_inj h' rfl
    rw [bits_inj h2]
    congr 1
    simp only [byteBits, List.cons.injEq, and_true] at h1
    obtain ⟨h0, h1, h2, h3, h4, h5, h6, h7⟩ := h1
    apply BitVec.eq_of_getLsbD_eq
    intro i hi
    interval_cases i <;> assumption

/-- Bit `k`, in transmission order, of a byte string. -/
def txBit (b : Bytes) (k : Nat) : Option Bool := (txBits b)[k]?

/-- Transmission order spelled out: bit `k` is bit `k % 8` (least significant first) of byte
`k / 8`. -/
theorem txBit_eq (b : Bytes) (k : Nat) : txBit b k = b[k / 8]?.map (fun x => x.getLsbD (k % 8)) := by
  induction b generalizing k with
  | nil => simp [txBit, txBits]
  | cons x b ih =>
    have e : txBits (x :: b) = byteBits x ++ txBits b := by simp [txBits]
    have hl : (byteBits x).length = 8 := rfl
    rw [txBit, e]
    by_cases h : k < 8
    · rw [List.getElem?_append_left (by omega)]
      interval_cases k <;> simp [byteBits]
    · rw [List.getElem?_append_right (by omega), hl]
      have := ih (k - 8)
      rw [txBit] at this
      rw [this]
      have h1 : k / 8 = (k - 8) / 8 + 1 := by omega
      have h2 : (k - 8) % 8 = k % 8 := by omega
      rw [h1, h2]; simp

/-- The pattern of flipped bits. -/
theorem error_poly (b b' : Bytes) (h : b'.length = b.length) (hb : gen ∣ poly b) (hb' : gen ∣ poly b') :
    gen ∣ bitsPoly (List.zipWith xor (txBits b) (txBits b')) := by
  rw [bitsPoly_zip _ _ (by rw [bits_length, bits_length, h])]
  exact dvd_add hb hb'

theorem zip_get (a b : List Bool) (h : a.length = b.length) (k : Nat) (x : Bool)
    (hk : (List.zipWith xor a b)[k]? = some x) : x = true ↔ a[k]? ≠ b[k]? := by
  rw [List.getElem?_zipWith] at hk
  cases ha : a[k]? with
  | none => simp [ha] at hk
  | some u =>
    cases hb : b[k]? with
    | none => simp [ha, hb] at hk
    | some v =>
      simp only [ha, hb, Option.some.injEq] at hk
      subst hk
      cases u <;> cases v <;> simp

/-- **C26**.  Flipping any nonempty set of bits within 16 consecutive positions of an accepted frame,
whatever its length, gives a frame that is rejected. -/
theorem C26_burst (b b' f : Bytes) (h : FrameWithFcs.new b = .ok f) (hl : b'.length = b.length)
    (hne : b' ≠ b) (s : Nat) (hs : ∀ k, txBit b k ≠ txBit b' k → s ≤ k ∧ k < s + 16) :
    FrameWithFcs.new b' = .err := by
  rcases C25_accepts_iff b with ⟨-, hb, -⟩ | ⟨-, e⟩
  swap; · rw [h] at e; cases e
  rcases C25_accepts_iff b' with ⟨-, hb', -⟩ | ⟨-, e⟩
  swap; · exact e
  exfalso
  apply hne
  have hlen : (txBits b).length = (txBits b').length := by rw [bits_length, bits_length, hl]
  have hd := error_poly b b' hl hb hb'
  generalize he : List.zipWith xor (txBits b) (txBits b') = e at hd
  have hz : ∀ k x, e[k]? = some x → ¬ (s ≤ k ∧ k < s + 16) → x = false := by
    intro k x hx hk
    have := zip_get _ _ hlen k x (by rw [he]; exact hx)
    cases x with
    | false => rfl
    | true => exact absurd (hs k (this.mp rfl)) hk
  have h1 : ∀ x ∈ e.take s, x = false := by
    intro x hx
    obtain ⟨k, hk⟩ := List.mem_iff_getElem?.mp hx
    rw [List.getElem?_take] at hk
    split at hk
    · exact hz k x hk (by omega)
    · cases hk
  have h3 : ∀ x ∈ (e.drop s).drop 16, x = false := by
    intro x hx
    obtain ⟨k, hk⟩ := List.mem_iff_getElem?.mp hx
    rw [List.drop_drop, List.getElem?_drop] at hk
    exact hz _ x hk (by omega)
  have hsplit : e = e.take s ++ ((e.drop s).take 16 ++ (e.drop s).drop 16) := by
    rw [List.take_append_drop, List.take_append_drop]
  rw [hsplit, bitsPoly_append, bitsPoly_append, bitsPoly_all_false _ h1, bitsPoly_all_false _ h3,
    zero_mul, zero_add, add_zero] at hd
  have hw := (gen_coprime_X _).dvd_of_dvd_mul_right hd
  have hw0 := eq_zero_of_gen_dvd hw (lt_of_lt_of_le (natDegree_bitsPoly _) (by
    simp only [List.length_take]; exact_mod_cast Nat.min_le_left _ _))
  have h2 : ∀ x ∈ (e.drop s).take 16, x = false := by
    have hr : bitsPoly ((e.drop s).take 16) =
        bitsPoly (List.replicate ((e.drop s).take 16).length false) := by
      rw [hw0, bitsPoly_all_false _ (fun x hx => List.eq_of_mem_replicate hx)]
    have := bitsPoly_inj (by simp) hr
    intro x hx
    rw [this] at hx
    exact List.eq_of_mem_replicate hx
  have hall : ∀ x ∈ e, x = false := by
    intro x hx
    rw [hsplit] at hx
    rcases List.mem_append.mp hx with hx | hx
    · exact h1 x hx
    · rcases List.mem_append.mp hx with hx | hx
      · exact h2 x hx
      · exact h3 x hx
  refine (bits_inj (List.ext_getElem? fun k => ?_)).symm
  by_contra hk
  have hx : (List.zipWith xor (txBits b) (txBits b'))[k]? = some true := by
    rw [List.getElem?_zipWith]
    cases ha : (txBits b)[k]? with
    | none =>
      rw [List.getElem?_eq_none_iff] at ha
      rw [List.getElem?_eq_none_iff.mpr ha, List.getElem?_eq_none_iff.mpr (hlen ▸ ha)] at hk
      exact absurd rfl hk
    | some u =>
      cases hb : (txBits b')[k]? with
      | none =>
        rw [List.getElem?_eq_none_iff] at hb
        rw [List.getElem?_eq_none_iff.mpr (hlen ▸ hb)] at ha; cases ha
      | some v =>
        rw [ha, hb] at hk
        cases u <;> cases v <;> simp at hk ⊢
  rw [he] at hx
  have := hall true (List.mem_of_getElem? hx)
  cases this

/-- An acknowledgment with its check sequence satisfies the hypotheses, with a burst of eleven bits. -/
example : FrameWithFcs.new [0x02, 0x10, 0x37, 0x15, 0x65] = .ok [0x02, 0x10, 0x37, 0x15, 0x65] ∧
    (∀ k, k < 40 → txBit [0x02, 0x10, 0x37, 0x15, 0x65] k ≠ txBit [0x02, 0xe0, 0x6a, 0x15, 0x65] k → 12 ≤ k ∧ k < 12 + 16) ∧
    FrameWithFcs.new [0x02, 0xe0, 0x6a, 0x15, 0x65] = .err := by decide +kernel

/-! ## C55: few flipped bits anywhere in a frame -/

/-- The positions at which two byte strings differ, in transmission order. -/
def flips (b b' : Bytes) : List Nat :=
  (List.range (8 * b.length)).filter fun k => txBit b k != txBit b' k

/-- The error polynomial by its exponents. -/
theorem bitsPoly_eval_one (l : List Bool) : (bitsPoly l).eval 1 = (l.count true : ZMod 2) := by
  induction l with
  | nil => simp [bitsPoly]
  | cons x l ih =>
    cases x
    · simp [bitsPoly, ih]
    · simp [bitsPoly, ih, gf, add_comm]

theorem gen_eval_one : gen.eval 1 = 0 := by
  simp [gen]; decide

theorem flips_count (b b' : Bytes) (h : b'.length = b.length) :
    (List.zipWith xor (txBits b) (txBits b')).count true = (flips b b').length := by
  have hlen : (txBits b).length = (txBits b').length := by rw [bits_length, bits_length, h]
  have hz : (List.zipWith xor (txBits b) (txBits b')).length = 8 * b.length := by
    rw [List.length_zipWith, ← hlen, Nat.min_self, bits_length]
  have e : List.zipWith xor (txBits b) (txBits b') =
      (List.range (8 * b.length)).map fun k => txBit b k != txBit b' k := by
    apply List.ext_getElem
    · rw [hz]; simp
    · intro k h1 h2
      have := zip_get _ _ hlen k _ (List.getElem?_eq_getElem h1)
      rw [List.getElem_map, List.getElem_range]
      rw [Bool.eq_iff_iff, this]
      simp [txBit]
  rw [e, flips, List.count_eq_countP, List.countP_map, ← List.countP_eq_length_filter]
  congr 1
  funext k
  simp

/-- Odd numbers of flipped bits are always detected. -/
theorem C55_odd (b b' f : Bytes) (h : FrameWithFcs.new b = .ok f) (hl : b'.length = b.length)
    (ho : (flips b b').length % 2 = 1) : FrameWithFcs.new b' = .err := by
  rcases C25_accepts_iff b with ⟨-, hb, -⟩ | ⟨-, e⟩
  swap; · rw [h] at e; cases e
  rcases C25_accepts_iff b' with ⟨-, hb', -⟩ | ⟨-, e⟩
  swap; · exact e
  exfalso
  have hd := error_poly b b' hl hb hb'
  have h1 : (bitsPoly (List.zipWith xor (txBits b) (txBits b'))).eval 1 = 0 := by
    obtain ⟨q, hq⟩ := hd
    rw [hq, eval_mul, gen_eval_one, zero_mul]
  rw [bitsPoly_eval_one, flips_count b b' hl] at h1
  rw [ZMod.natCast_eq_zero_iff] at h1
  omega

example : FrameWithFcs.new [0x03, 0x13, 0x37, 0x15, 0x65] = .err :=
  C55_odd [0x02, 0x10, 0x37, 0x15, 0x65] _ [0x02, 0x10, 0x37, 0x15, 0x65] (by decide +kernel) rfl
    (by decide +kernel)

/-- A register that does not come back within `n` steps to `t`. -/
def noReturn (t : BitVec 16) : Nat → BitVec 16 → Bool
  | 0, _ => true
  | n+1, c => crcBit c != t && noReturn t n (crcBit c)

theorem noReturn_spec (t : BitVec 16) : ∀ (n : Nat) (c : BitVec 16), noReturn t n c = true →
    ∀ d, 0 < d → d ≤ n → crcBits d c ≠ t
  | 0, _, _, d, h0, h1 => by omega
  | n+1, c, h, d, h0, h1 => by
    simp only [noReturn, Bool.and_eq_true, bne_iff_ne] at h
    match d with
    | 1 => exact h.1
    | d+2 => exact noReturn_spec t n _ h.2 (d+1) (by omega) (by omega)

theorem gen_dvd_crcBits (n : Nat) (c : BitVec 16) :
    gen ∣ regPoly (crcBits n c) - X ^ n * regPoly c := by
  induction n generalizing c with
  | zero => simp [crcBits]
  | succ n ih =>
    have h3 := dvd_add (ih (crcBit c)) (Dvd.dvd.mul_left (gen_dvd_step c) (X ^ n))
    convert h3 using 1
    simp only [crcBits]; ring

theorem not_gen_dvd_binomial (d : Nat) (h0 : 0 < d) (h1 : d < 1016) : ¬ gen ∣ X ^ d + 1 := by
  intro h
  have hr : noReturn 0x8000#16 1016 0x8000#16 = true := by decide +kernel
  have hne := noReturn_spec _ _ _ hr d h0 (by omega)
  apply hne
  have hone : regPoly 0x8000#16 = 1 := by simp [regPoly, regBits, bitsPoly, gf]
  have h2 := dvd_add (gen_dvd_crcBits d 0x8000#16) h
  rw [hone, mul_one] at h2
  have two : (2 : (ZMod 2)[X]) = 0 := CharTwo.two_eq_zero
  have h4 : gen ∣ regPoly (crcBits d 0x8000#16) - regPoly 0x8000#16 := by
    rw [hone]
    convert h2 using 1
    linear_combination -two
  have := eq_zero_of_gen_dvd h4 (lt_of_le_of_lt (degree_sub_le _ _)
    (max_lt (natDegree_bitsPoly _) (natDegree_bitsPoly _)))
  exact regBits_inj (bitsPoly_inj rfl (sub_eq_zero.mp this))

theorem two_bits : ∀ (l : List Bool), l.count true = 2 → ∃ i d, 0 < d ∧ i + d < l.length ∧
    bitsPoly l = X ^ i * (X ^ d + 1)
  | [], h => by simp at h
  | false :: l, h => by
    obtain ⟨i, d, h0, h1, h2⟩ := two_bits l (by simpa using h)
    exact ⟨i, d, h0, by simp; omega, by simp [bitsPoly, h2]⟩
  | true :: l, h => by
    have h1 : l.count true = 1 := by simpa using h
    have one : ∀ (l : List Bool), l.count true = 1 → ∃ i, i < l.length ∧ bitsPoly l = X ^ i := by
      intro l
      induction l with
      | nil => intro h; simp at h
      | cons x l ih =>
        intro h
        cases x with
        | false =>
          obtain ⟨i, hi, e⟩ := ih (by simpa using h)
          exact ⟨i, by simp; omega, by simp [bitsPoly, e]⟩
        | true =>
          have : l.count true = 0 := by simpa using h
          refine ⟨l.length, by simp, ?_⟩
          rw [bitsPoly, bitsPoly_all_false l ?_]
          · simp [gf]
          · intro x hx
            cases x with
            | false => rfl
            | true => exact absurd hx (List.count_eq_zero.mp this)
    obtain ⟨i, hi, e⟩ := one l h1
    refine ⟨i, l.length - i, by omega, by simp; omega, ?_⟩
    have : X ^ l.length = (X : (ZMod 2)[X]) ^ i * X ^ (l.length - i) := by
      rw [← pow_add]; congr 1; omega
    rw [bitsPoly, e, this]; simp [gf]; ring

/-- **C55**.  Flipping one, two or three bits anywhere in an accepted frame of at most 127 bytes
gives a frame that is rejected. -/
theorem C55_hamming (b b' f : Bytes) (h : FrameWithFcs.new b = .ok f) (hl : b'.length = b.length)
    (h127 : b.length ≤ 127) (h0 : 1 ≤ (flips b b').length) (h3 : (flips b b').length ≤ 3) :
    FrameWithFcs.new b' = .err := by
  by_cases h2 : (flips b b').length = 2
  · rcases C25_accepts_iff b with ⟨-, hb, -⟩ | ⟨-, e⟩
    swap; · rw [h] at e; cases e
    rcases C25_accepts_iff b' with ⟨-, hb', -⟩ | ⟨-, e⟩
    swap; · exact e
    exfalso
    have hd := error_poly b b' hl hb hb'
    rw [← flips_count b b' hl] at h2
    obtain ⟨i, d, hd0, hd1, e⟩ := two_bits _ h2
    rw [e, mul_comm] at hd
    rw [List.length_zipWith, bits_length, bits_length] at hd1
    exact not_gen_dvd_binomial d hd0 (by omega) ((gen_coprime_X _).dvd_of_dvd_mul_right hd)
  · exact C55_odd b b' f h hl (by omega)

example : flips [0x31, 0x32] [0x30, 0xb2] = [0, 15] := by decide +kernel

end Dot15d4.Props
