import Verif.Model.Macro
import Mathlib.Tactic.IntervalCases
import Mathlib.Tactic.Ring

/-! # C24: generated accessors of declared fields -/

namespace Dot15d4.Props
open Out Macro

/-! ## Specification -/

/-- A buffer as a little-endian number. -/
def leNat : Bytes → Nat
  | [] => 0
  | b :: l => b.toNat + 256 * leNat l

/-- The number of bits a field is declared to occupy. -/
def width (f : Field) : Nat :=
  match f.bytesAttr, f.bitsAttr with
  | some n, none => 8 * n
  | none, some n => n
  | _, _ => 0

/-- The declared width is the one of the field's type, and the field, starting at bit `k` of a byte,
does not straddle bytes. -/
def Sound (f : Field) (k : Nat) : Prop :=
  match f.ty, f.bytesAttr, f.bitsAttr with
  | .bool, none, some 1 => k < 8
  | .u8, none, some n => 1 ≤ n ∧ k + n ≤ 8
  | .u8, some 1, none => k = 0
  | .u16, some 2, none => k = 0
  | .u32, some 4, none => k = 0
  | .u64, some 8, none => k = 0
  | .bytes, some (_+1), none => k = 0
  | .struct s, some n, none => k = 0 ∧ n = s
  | .struct s, none, some 8 => k = 0 ∧ s = 1
  | _, _, _ => False

/-- Every field of the declaration, the first starting at bit `pos`, is sound, and the declaration
ends at a byte boundary. -/
def WellFormed : Nat → List Field → Prop
  | pos, [] => pos % 8 = 0
  | pos, f :: fs => Sound f (pos % 8) ∧ WellFormed (pos + width f) fs

/-- What a field at bit position `start` should read as. -/
def fieldValue (f : Field) (start : Nat) (buf : Bytes) : Val :=
  match f.ty with
  | .bytes | .struct _ => .raw ((buf.drop (start / 8)).take (width f / 8))
  | _ => .num (leNat buf / 2 ^ start % 2 ^ width f)

/-- The bit position of field `i`: the sum of the widths of the fields before. -/
def startOf (fs : List Field) (i : Nat) : Nat := ((fs.take i).map width).sum

/-- The optional field is present (`#[condition]`). -/
def present (f : Field) (buf : Bytes) : Bool :=
  match f.lenOver with
  | some n => decide (n < buf.length)
  | none => true

/-- The claim for one declaration: `size` is the end of the last field and every accessor reads its
field's bits from where the preceding field ends. -/
def ReadsConsecutively (fs : List Field) : Prop :=
  8 * size fs = (fs.map width).sum ∧
  ∀ buf : Bytes, size fs ≤ buf.length → ∀ i f, fs[i]? = some f →
    (∀ j g, j < i → fs[j]? = some g → g.name ≠ f.name) →
    get fs f.name buf =
      .ok (if present f buf then some (fieldValue f (startOf fs i) buf) else none)

/-! ## Proof -/

theorem leNat_drop (o : Nat) (buf : Bytes) : leNat buf / 2 ^ (8 * o) = leNat (buf.drop o) := by
  induction o generalizing buf with
  | zero => simp
  | succ o ih =>
    cases buf with
    | nil => simp [leNat]
    | cons b l =>
      rw [List.drop_succ_cons, ← ih l, show 8 * (o + 1) = 8 + 8 * o by ring, Nat.pow_add,
        ← Nat.div_div_eq_div_mul]
      congr 1
      have := b.isLt
      simp only [leNat]; omega

/-- Position reached by the macro and bit position agree. -/
def At (p : Pos) (pos : Nat) : Prop := p.offset = pos / 8 ∧ p.bits = pos % 8

theorem advance_at {p : Pos} {pos : Nat} {f : Field} (h : At p pos) (hs : Sound f (pos % 8)) :
    At (advance p f) (pos + width f) := by
  obtain ⟨h1, h2⟩ := h
  unfold Sound at hs
  have key : (∃ n, f.bytesAttr = some n ∧ f.bitsAttr = none ∧ pos % 8 = 0) ∨
      (∃ n, f.bytesAttr = none ∧ f.bitsAttr = some n ∧ 1 ≤ n ∧ pos % 8 + n ≤ 8) := by
    split at hs
    all_goals first
      | exact hs.elim
      | (rename_i e1 e2 e3; rw [e2, e3]; simp; omega)
  rcases key with ⟨n, e1, e2, e3⟩ | ⟨n, e1, e2, e3, e4⟩
  · simp only [At, advance, width, e1, e2]; omega
  · simp only [At, advance, width, e1, e2]
    split
    · simp only []; omega
    · simp only []; omega

theorem size_at (fs : List Field) : ∀ (p : Pos) (pos : Nat), At p pos → WellFormed pos fs →
    8 * (fs.foldl advance p).offset = pos + (fs.map width).sum := by
  induction fs with
  | nil => intro p pos h hw; simp only [WellFormed] at hw; simp only [List.foldl_nil, h.1]; simp; omega
  | cons f fs ih =>
    intro p pos h hw
    rw [List.foldl_cons, ih _ _ (advance_at h hw.1) hw.2]
    simp; omega

theorem layout_at (fs : List Field) : ∀ (p : Pos) (pos : Nat), At p pos → WellFormed pos fs →
    ∀ i f, fs[i]? = some f → ∃ q, (layoutFrom p fs)[i]? = some (f, q) ∧ At q (pos + startOf fs i) ∧
      Sound f ((pos + startOf fs i) % 8) ∧
      pos + startOf fs i + width f ≤ pos + (fs.map width).sum := by
  induction fs with
  | nil => intro p pos h hw i f hf; simp at hf
  | cons g fs ih =>
    intro p pos h hw i f hf
    cases i with
    | zero =>
      simp only [List.getElem?_cons_zero, Option.some.injEq] at hf
      subst hf
      exact ⟨p, rfl, by simpa [startOf] using h, by simpa [startOf] using hw.1, by simp [startOf]⟩
    | succ i =>
      obtain ⟨q, e1, e2, e3, e4⟩ := ih _ _ (advance_at h hw.1) hw.2 i f (by simpa using hf)
      have e : pos + width g + startOf fs i = pos + startOf (g :: fs) (i + 1) := by
        simp [startOf]; omega
      rw [e] at e2 e3 e4
      exact ⟨q, by simpa [layoutFrom] using e1, e2, e3, by simp; omega⟩

theorem find_layout (fs : List Field) : ∀ (p : Pos) (i : Nat) (f : Field) (q : Pos),
    (layoutFrom p fs)[i]? = some (f, q) →
    (∀ j g, j < i → fs[j]? = some g → g.name ≠ f.name) →
    (layoutFrom p fs).find? (fun x => x.1.name == f.name) = some (f, q) := by
  induction fs with
  | nil => intro p i f q h; simp [layoutFrom] at h
  | cons g fs ih =>
    intro p i f q h hn
    cases i with
    | zero =>
      simp only [layoutFrom, List.getElem?_cons_zero, Option.some.injEq, Prod.mk.injEq] at h
      obtain ⟨rfl, rfl⟩ := h
      simp [layoutFrom]
    | succ i =>
      have h0 := hn 0 g (by omega) rfl
      simp only [layoutFrom, List.getElem?_cons_succ] at h
      rw [layoutFrom, List.find?_cons_of_neg (by simpa using h0)]
      exact ih _ i f q h fun j g' hj hg => hn (j+1) g' (by omega) (by simpa using hg)

theorem shift_mod (b : Byte) (l k n : Nat) (h : k + n ≤ 8) (hn : 1 ≤ n) :
    ((b >>> k) &&& ((1#8 <<< n) - 1#8)).toNat = (b.toNat + 256 * l) / 2 ^ k % 2 ^ n := by
  have hm : ((1#8 <<< n) - 1#8).toNat = 2 ^ n - 1 := by
    have : n = 1 ∨ n = 2 ∨ n = 3 ∨ n = 4 ∨ n = 5 ∨ n = 6 ∨ n = 7 ∨ n = 8 := by omega
    rcases this with rfl | rfl | rfl | rfl | rfl | rfl | rfl | rfl <;> decide
  rw [BitVec.toNat_and, hm, BitVec.toNat_ushiftRight, Nat.shiftRight_eq_div_pow,
    Nat.and_two_pow_sub_one_eq_mod]
  have h256 : (256 : Nat) = 2 ^ k * (2 ^ n * 2 ^ (8 - k - n)) := by
    rw [← Nat.pow_add, ← Nat.pow_add, show k + (n + (8 - k - n)) = 8 by omega]
  rw [h256, Nat.mul_assoc, Nat.add_mul_div_left _ _ (Nat.two_pow_pos k), Nat.mul_assoc,
    Nat.add_mul_mod_self_left]

theorem u32le_toNat (b c x y : Byte) :
    (u32le b c x y).toNat = b.toNat + 2^8 * c.toNat + 2^16 * x.toNat + 2^24 * y.toNat := by
  have := b.isLt; have := c.isLt; have := x.isLt; have := y.isLt
  have e : u32le b c x y = BitVec.cast (by rfl) (y ++ (x ++ (c ++ b))) := by
    unfold u32le
    apply BitVec.eq_of_getLsbD_eq
    intro i hi
    simp only [BitVec.getLsbD_or, BitVec.getLsbD_setWidth, BitVec.getLsbD_shiftLeft, BitVec.getLsbD_cast,
      BitVec.getLsbD_append]
    interval_cases i <;> simp [-BitVec.getLsbD_eq_getElem, BitVec.getLsbD_of_ge]
  rw [e]
  simp only [BitVec.toNat_cast, BitVec.toNat_append]
  have h1 : c.toNat <<< 8 ||| b.toNat = c.toNat * 2 ^ 8 + b.toNat := by
    rw [← Nat.shiftLeft_add_eq_or_of_lt (by omega), Nat.shiftLeft_eq]
  have h2 : x.toNat <<< (8 + 8) ||| (c.toNat * 2 ^ 8 + b.toNat) =
      x.toNat * 2 ^ 16 + (c.toNat * 2 ^ 8 + b.toNat) := by
    rw [← Nat.shiftLeft_add_eq_or_of_lt (by omega), Nat.shiftLeft_eq]
  have h3 : y.toNat <<< (8 + (8 + 8)) ||| (x.toNat * 2 ^ 16 + (c.toNat * 2 ^ 8 + b.toNat)) =
      y.toNat * 2 ^ 24 + (x.toNat * 2 ^ 16 + (c.toNat * 2 ^ 8 + b.toNat)) := by
    rw [← Nat.shiftLeft_add_eq_or_of_lt (by omega), Nat.shiftLeft_eq]
  rw [h1, h2, h3]
  omega

theorem getter_of_body {f : Field} {p : Pos} {buf : Bytes} {v : Val} (h : body f p buf = .ok v) :
    getter f p buf = .ok (if present f buf then some v else none) := by
  unfold getter present
  rw [h]
  obtain ⟨nm, ty, ba, bi, lo⟩ := f
  cases lo with
  | none => rfl
  | some n => by_cases hc : n < buf.length <;> simp [hc]

theorem body_at (f : Field) (p : Pos) (pos : Nat) (buf : Bytes) (h : At p pos)
    (hs : Sound f (pos % 8)) (hl : pos + width f ≤ 8 * buf.length) :
    body f p buf = .ok (fieldValue f pos buf) := by
  obtain ⟨h1, h2⟩ := h
  have hpos : pos = 8 * p.offset + p.bits := by omega
  have hle : ∀ w, leNat buf / 2 ^ pos % 2 ^ w = leNat (buf.drop p.offset) / 2 ^ p.bits % 2 ^ w := by
    intro w
    rw [hpos, Nat.pow_add, ← Nat.div_div_eq_div_mul, leNat_drop]
  have hlen : (buf.drop p.offset).length = buf.length - p.offset := List.length_drop
  unfold Sound at hs
  split at hs
  · rename_i e1 e2 e3
    simp only [width, e2, e3] at hl
    simp only [body, fieldValue, e1, width, e2, e3, hle]
    rw [sliceFrom_ok (by omega)]
    generalize buf.drop p.offset = d at hlen ⊢
    match d, (by omega : 1 ≤ d.length) with
    | b :: d, _ =>
      have := shift_mod b (leNat d) p.bits 1 (by omega) (by omega)
      simp only [show (1#8 <<< 1) - 1#8 = 1#8 by decide] at this
      simp only [bind_ok, idx_zero, leNat, ← this]
      have h01 : ∀ x : Byte, (if x &&& 1#8 != 0#8 then 1 else 0) = (x &&& 1#8).toNat := by decide +kernel
      rw [h01]
  · rename_i n e1 e2 e3
    simp only [width, e2, e3] at hl
    simp only [body, fieldValue, e1, width, e2, e3, hle]
    rw [sliceFrom_ok (by omega)]
    generalize buf.drop p.offset = d at hlen ⊢
    match d, (by omega : 1 ≤ d.length) with
    | b :: d, _ =>
      have := shift_mod b (leNat d) p.bits n (by omega) (by omega)
      simp only [bind_ok, idx_zero, leNat, ← this]
  · rename_i e1 e2 e3
    simp only [width, e2, e3] at hl
    simp only [body, fieldValue, e1, width, e2, e3, hle]
    rw [sliceFrom_ok (by omega)]
    generalize buf.drop p.offset = d at hlen ⊢
    match d, (by omega : 1 ≤ d.length) with
    | b :: d, _ =>
      have := b.isLt
      simp only [bind_ok, idx_zero, leNat, h2, hs, Nat.pow_zero, Nat.div_one]
      congr 2; omega
  · rename_i e1 e2 e3
    simp only [width, e2, e3] at hl
    simp only [body, fieldValue, e1, width, e2, e3, hle]
    rw [sliceFrom_ok (by omega)]
    generalize buf.drop p.offset = d at hlen ⊢
    match d, (by omega : 2 ≤ d.length) with
    | b :: c :: d, _ =>
      have := b.isLt; have := c.isLt
      simp only [bind_ok, leNat, h2, hs, Nat.pow_zero, Nat.div_one, idx]
      simp [u16le_toNat]
      omega
  · rename_i e1 e2 e3
    simp only [width, e2, e3] at hl
    simp only [body, fieldValue, e1, width, e2, e3, hle]
    rw [sliceFrom_ok (by omega)]
    generalize buf.drop p.offset = d at hlen ⊢
    match d, (by omega : 4 ≤ d.length) with
    | b :: c :: x :: y :: d, _ =>
      have := b.isLt; have := c.isLt; have := x.isLt; have := y.isLt
      simp only [bind_ok, leNat, h2, hs, Nat.pow_zero, Nat.div_one, idx]
      simp [u32le_toNat]
      omega
  · rename_i e1 e2 e3
    simp only [width, e2, e3] at hl
    simp only [body, fieldValue, e1, width, e2, e3, hle]
    rw [sliceFrom_ok (by omega)]
    generalize buf.drop p.offset = d at hlen ⊢
    match d, (by omega : 8 ≤ d.length) with
    | b :: c :: x :: y :: b' :: c' :: x' :: y' :: d, _ =>
      have := b.isLt; have := c.isLt; have := x.isLt; have := y.isLt
      have := b'.isLt; have := c'.isLt; have := x'.isLt; have := y'.isLt
      simp only [bind_ok, leNat, h2, hs, Nat.pow_zero, Nat.div_one, idx]
      simp [u64num]
      omega
  · rename_i n e1 e2 e3
    simp only [width, e2, e3] at hl
    simp only [body, fieldValue, e1, width, e2, e3]
    rw [sliceFrom_ok (by omega), bind_ok, sliceTo_ok (by omega), bind_ok,
      Nat.mul_div_cancel_left _ (by omega), h1]
  · rename_i s n e1 e2 e3
    simp only [width, e2, e3] at hl
    simp only [body, fieldValue, e1, width, e2, e3]
    rw [sliceFrom_ok (by omega), bind_ok, sliceTo_ok (by omega), bind_ok,
      Nat.mul_div_cancel_left _ (by omega), h1, hs.2]
  · rename_i s e1 e2 e3
    simp only [width, e2, e3] at hl
    simp only [body, fieldValue, e1, width, e2, e3]
    rw [sliceFrom_ok (by omega), bind_ok, sliceTo_ok (by omega), bind_ok, h1, hs.2]
  · exact hs.elim

/-- **C24, for well-formed declarations** (arbitrarily long): accessors read consecutive disjoint bit
ranges in declaration order and `size` is where the last ends. -/
theorem C24_layout_partial (fs : List Field) (h : WellFormed 0 fs) : ReadsConsecutively fs := by
  have h0 : At ⟨0, 0⟩ 0 := ⟨rfl, rfl⟩
  have hsz : 8 * size fs = (fs.map width).sum := by
    have := size_at fs ⟨0, 0⟩ 0 h0 h
    simpa [size] using this
  refine ⟨hsz, fun buf hb i f hf hn => ?_⟩
  obtain ⟨q, e1, e2, e3, e4⟩ := layout_at fs ⟨0, 0⟩ 0 h0 h i f hf
  rw [Nat.zero_add] at e2 e3 e4
  have hfind := find_layout fs ⟨0, 0⟩ i f q e1 hn
  have hbody := body_at f q _ buf e2 e3 (by omega)
  simp only [Macro.get, layout, hfind]
  exact getter_of_body hbody

/-- The declarations of the code base that are well-formed. -/
theorem C24_codebase_partial : ReadsConsecutively superframeSpecification ∧
    ReadsConsecutively gtsSpecification ∧ ReadsConsecutively gtsSlot ∧
    ReadsConsecutively pendingAddressSpecification ∧ ReadsConsecutively pendingAddress ∧
    ReadsConsecutively dsmeSuperframeSpecification := by
  refine ⟨?_, ?_, ?_, ?_, ?_, ?_⟩ <;> apply C24_layout_partial <;>
    simp [WellFormed, Sound, width, superframeSpecification, gtsSpecification, gtsSlot,
      pendingAddressSpecification, pendingAddress, dsmeSuperframeSpecification, size, advance]

/-! ## The claim is false for fields declared without `#[bytes]` or `#[bits]` -/

/-- The bits a field of a type occupies on the wire (`#[bytes]`/`#[bits]` if given). -/
def naturalWidth (f : Field) : Nat :=
  match f.ty, f.bytesAttr, f.bitsAttr with
  | _, some n, none => 8 * n
  | _, _, some n => n
  | .bool, none, none => 1
  | .u8, none, none => 8
  | .u16, none, none => 16
  | .u32, none, none => 32
  | .u64, none, none => 64
  | .struct n, none, none => 8 * n
  | .bytes, none, none => 0

/-- The claim: numeric fields read from consecutive positions and every buffer that passes `new` is
readable. -/
def C24_statement : Prop := ∀ (fs : List Field) (buf : Bytes), Macro.new fs buf = .ok buf →
  ∀ i f, fs[i]? = some f → (∀ j g, j < i → fs[j]? = some g → g.name ≠ f.name) →
    Returns (get fs f.name buf) ∧
    (∀ n, get fs f.name buf = .ok (some (.num n)) →
      n = leNat buf / 2 ^ ((fs.take i).map naturalWidth).sum % 2 ^ naturalWidth f)

/-- Coordinated sampled listening: the period accessor returns the phase. -/
theorem C24_csl (buf : Bytes) : get csl "csl_period" buf = get csl "csl_phase" buf := by
  simp [Macro.get, csl, layout, layoutFrom, advance, getter, body]

/-- `size` of `Csl` is zero, so an empty buffer passes `new`, and the accessors panic. -/
theorem C24_csl_panics : Macro.new csl [] = .ok [] ∧ get csl "csl_phase" [] = .panic := by decide

/-- The vendor OUI is returned shifted by a byte. -/
theorem C24_vendor_oui (b0 b1 b2 : Byte) (l : Bytes) :
    get vendorSpecific "vendor_oui" (b0 :: b1 :: b2 :: l) =
      .ok (some (.num (u32le 0 b0 b1 b2).toNat)) := by
  simp [Macro.get, vendorSpecific, layout, layoutFrom, getter, body, sliceFrom, idx]

/-- The time synchronization and CFP specifications have a `size` too small for their last field;
the GTS direction of `GtsInfo` is outside of its `size`. -/
theorem C24_sizes : size timeSynchronizationSpecification = 8 ∧
    get timeSynchronizationSpecification "beacon_offset_timestamp" [0,0,0,0,0,0,0,0] = .panic ∧
    size cfpSpecification = 1 ∧ get cfpSpecification "last_cfp_slot" [0] = .panic ∧
    size gtsInfo = 1 ∧ get gtsInfo "gts_direction" [0] = .panic := by decide

/-- Where there is a second octet, the direction is its lowest bit: of the first descriptor only. -/
theorem C24_gts_direction (b0 b1 : Byte) (l : Bytes) :
    get gtsInfo "gts_direction" (b0 :: b1 :: l) = .ok (some (.num (b1.toNat % 2))) := by
  have h : (b1 &&& 1#8).toNat = b1.toNat % 2 := by
    rw [BitVec.toNat_and]
    exact Nat.and_one_is_mod _
  simp [Macro.get, gtsInfo, gtsSpecification, size, layout, layoutFrom, advance, getter, body, sliceFrom, idx]

/-- What every accessor of the declarations that are not well-formed returns: fields without
`#[bytes]` or `#[bits]` are all read from where the previous one was (so the listening parameters, the
hopping specification and the rendezvous times show their first octets several times, and the timestamp
of a simplified superframe specification is its superframe specification). -/
theorem C24_readings (b0 b1 b2 b3 : Byte) (l : Bytes) :
    (get csl "csl_phase" (b0 :: b1 :: l) = .ok (some (.num (b0.toNat + 256 * b1.toNat))) ∧
      get csl "csl_period" (b0 :: b1 :: l) = .ok (some (.num (b0.toNat + 256 * b1.toNat))) ∧
      get csl "rendezvous_time" (b0 :: b1 :: l) =
        .ok (if 2 < l.length then some (.num (b0.toNat + 256 * b1.toNat)) else none)) ∧
    (get rit "time_to_first_listen" (b0 :: b1 :: l) = .ok (some (.num b0.toNat)) ∧
      get rit "number_of_repeat_listen" (b0 :: b1 :: l) = .ok (some (.num b0.toNat)) ∧
      get rit "repeat_listen_interval" (b0 :: b1 :: l) =
        .ok (some (.num (b0.toNat + 256 * b1.toNat)))) ∧
    (get channelHoppingSpecification "hopping_sequence_id" (b0 :: b1 :: l) = .ok (some (.num b0.toNat)) ∧
      get channelHoppingSpecification "pan_coordinator_bsn" (b0 :: b1 :: l) = .ok (some (.num b0.toNat)) ∧
      get channelHoppingSpecification "channel_offset" (b0 :: b1 :: l) =
        .ok (some (.num (b0.toNat + 256 * b1.toNat))) ∧
      get channelHoppingSpecification "channel_offset_bitmap_length" (b0 :: b1 :: l) =
        .ok (some (.num b0.toNat)) ∧
      get channelHoppingSpecification "channel_offset_bitmap" (b0 :: b1 :: l) =
        .ok (some (.raw (b0 :: b1 :: l)))) ∧
    (get rendezvousTime "rendezvous_time" (b0 :: b1 :: l) =
        .ok (some (.num (b0.toNat + 256 * b1.toNat))) ∧
      get rendezvousTime "wake_up_interval" (b0 :: b1 :: l) =
        .ok (some (.num (b0.toNat + 256 * b1.toNat)))) ∧
    (get simplifiedSuperframeSpecification "timestamp" (b0 :: b1 :: b2 :: b3 :: l) =
        .ok (some (.num (b0.toNat + 256 * b1.toNat))) ∧
      get simplifiedSuperframeSpecification "superframe_specification" (b0 :: b1 :: b2 :: b3 :: l) =
        .ok (some (.raw [b0, b1])) ∧
      get simplifiedSuperframeSpecification "cfp_specification" (b0 :: b1 :: b2 :: b3 :: l) =
        .ok (some (.raw [b2])) ∧
      get cfpSpecification "last_cfp_slot" [b2] = .panic ∧
      get cfpSpecification "gts_permit" [b2] = .panic) ∧
    (get vendorSpecific "vendor_specific_payload" (b0 :: b1 :: b2 :: l) = .ok (some (.raw l))) ∧
    (∀ t : Bytes, t.length = 8 →
      get timeSynchronizationSpecification "beacon_timestamp" (t ++ l) = .ok (some (.raw t)) ∧
      get timeSynchronizationSpecification "beacon_offset_timestamp" (t ++ b0 :: b1 :: l) =
        .ok (some (.num (b0.toNat + 256 * b1.toNat)))) := by
  refine ⟨⟨?_, ?_, ?_⟩, ⟨?_, ?_, ?_⟩, ⟨?_, ?_, ?_, ?_, ?_⟩, ⟨?_, ?_⟩, ⟨?_, ?_, ?_, ?_, ?_⟩, ?_,
    fun t ht => ⟨?_, ?_⟩⟩
  case refine_3 =>
    by_cases h : 2 < l.length
    · rw [if_pos h]
      simp [Macro.get, csl, layout, layoutFrom, advance, getter, body, sliceFrom, idx, u16le_toNat,
        show 4 < l.length + 1 + 1 by omega]
    · rw [if_neg h]
      simp [Macro.get, csl, layout, layoutFrom, advance, getter, show ¬ 4 < l.length + 1 + 1 by omega]
  case refine_20 =>
    simp [Macro.get, timeSynchronizationSpecification, layout, layoutFrom, advance, getter, body,
      sliceFrom, sliceTo, List.take_left' ht, ht]
  case refine_21 =>
    simp [Macro.get, timeSynchronizationSpecification, layout, layoutFrom, advance, getter, body,
      sliceFrom, idx, u16le_toNat, ← ht]
  all_goals
    simp [Macro.get, csl, rit, channelHoppingSpecification, rendezvousTime,
      simplifiedSuperframeSpecification, cfpSpecification, vendorSpecific, superframeSpecification, size,
      layout, layoutFrom, advance, getter, body, sliceFrom, sliceTo, idx, u16le_toNat]

/-- The CFP specification in the two octets it has on the air. -/
theorem C24_cfp (b0 b1 : Byte) (l : Bytes) :
    get cfpSpecification "gts_count" (b0 :: b1 :: l) = .ok (some (.num (b0.toNat % 8))) ∧
    get cfpSpecification "first_cfp_slot" (b0 :: b1 :: l) = .ok (some (.num (b0.toNat / 8))) ∧
    get cfpSpecification "last_cfp_slot" (b0 :: b1 :: l) = .ok (some (.num (b1.toNat % 16))) ∧
    get cfpSpecification "gts_permit" (b0 :: b1 :: l) =
      .ok (some (.num (b1.toNat / 16 % 2))) := by
  refine ⟨?_, ?_, ?_, ?_⟩ <;>
  simp [Macro.get, cfpSpecification, layout, layoutFrom, advance, getter, body, sliceFrom, idx]
  · revert b0; decide
  · revert b0; decide
  · revert b1; decide
  · revert b1; decide

theorem C24_false : ¬ C24_statement := fun h => by
  have := (h csl [] (by decide) 0 _ rfl (by omega)).1
  exact this (by decide)

/-- A concrete reading by the theorem. -/
example : get superframeSpecification "final_cap_slot" [0x76, 0x85] = .ok (some (.num 5)) := by decide

end Dot15d4.Props
