/-!
# The fragment of Rust semantics used by the model

A Rust function returning `T` or `Result<T, Error>` is modelled as a Lean function returning
`Out T`: `ok` is a normal return (`Ok` for `Result`), `err` is `Err(Error)` (the crate has a
single error value, dot15d4-frame/src/lib.rs:213-218), `panic` is any panic (index out of
bounds, `unwrap` on `None`/`Err`, `todo!`, `unreachable!`, `assert!`, `copy_from_slice` with
different lengths).  `?` on a `Result` is monadic bind.  Slices are lists of bytes; a function
taking `&mut [u8]` returns the new contents.  `usize` arithmetic is on `Nat` (every quantity
is bounded by a buffer length, so no overflow can occur on a real machine).
-/

namespace Dot15d4

/-- `u8`. -/
abbrev Byte := BitVec 8
/-- `[u8]`. -/
abbrev Bytes := List (BitVec 8)

/-- Outcome of a Rust call. -/
inductive Out (α : Type u) where
  | ok (a : α)
  | err
  | panic
  deriving DecidableEq, Repr

namespace Out

/-- Sequencing: `?` for errors, unwinding for panics. -/
@[simp] protected def bind {α : Type u} {β : Type v} : Out α → (α → Out β) → Out β
  | .ok a, f => f a
  | .err, _ => .err
  | .panic, _ => .panic

instance : Monad Out where
  pure := .ok
  bind := Out.bind

@[simp] theorem pure_eq {α : Type u} (a : α) : (pure a : Out α) = .ok a := rfl
@[simp] theorem bind_ok {α β : Type u} (a : α) (f : α → Out β) : (Out.ok a >>= f) = f a := rfl
@[simp] theorem bind_err {α β : Type u} (f : α → Out β) : ((Out.err : Out α) >>= f) = .err := rfl
@[simp] theorem bind_panic {α β : Type u} (f : α → Out β) :
    ((Out.panic : Out α) >>= f) = .panic := rfl
@[simp] theorem map_ok {α β : Type u} (a : α) (f : α → β) : (f <$> Out.ok a) = .ok (f a) := rfl

instance : LawfulMonad Out := LawfulMonad.mk' _
  (id_map := by intro α x; cases x <;> rfl)
  (pure_bind := by intros; rfl)
  (bind_assoc := by intro α β γ x f g; cases x <;> rfl)

/-- `Result::unwrap`. -/
@[simp] def unwrap {α : Type u} : Out α → Out α
  | .ok a => .ok a
  | .err => .panic
  | .panic => .panic

/-- `Result::ok()`: the outcome as data. -/
@[simp] def toOption {α : Type u} : Out α → Out (Option α)
  | .ok a => .ok (some a)
  | .err => .ok none
  | .panic => .panic

/-- `Option::unwrap`. -/
@[simp] def ofSome {α : Type u} : Option α → Out α
  | some a => .ok a
  | none => .panic

/-- The call returned (normally or with `Err`), i.e. did not panic. -/
def Returns {α : Type u} (o : Out α) : Prop := o ≠ .panic

instance {α : Type u} (o : Out α) : Decidable (Returns o) :=
  match o with
  | .ok _ => isTrue (by simp [Returns])
  | .err => isTrue (by simp [Returns])
  | .panic => isFalse (by simp [Returns])

@[simp] theorem returns_ok {α : Type u} (a : α) : Returns (.ok a) := by simp [Returns]
@[simp] theorem returns_err {α : Type u} : Returns (.err : Out α) := by simp [Returns]
@[simp] theorem not_returns_panic {α : Type u} : ¬ Returns (.panic : Out α) := by simp [Returns]

theorem bind_eq_ok {α β : Type u} {x : Out α} {f : α → Out β} {b : β} :
    (x >>= f) = .ok b ↔ ∃ a, x = .ok a ∧ f a = .ok b := by
  cases x <;> simp

end Out

open Out

/-- `b[i]`. -/
def idx (b : Bytes) (i : Nat) : Out Byte :=
  match b[i]? with
  | some x => .ok x
  | none => .panic

/-- `b[i..]`. -/
def sliceFrom (b : Bytes) (i : Nat) : Out Bytes :=
  if i ≤ b.length then .ok (b.drop i) else .panic

/-- `b[..n]`. -/
def sliceTo (b : Bytes) (n : Nat) : Out Bytes :=
  if n ≤ b.length then .ok (b.take n) else .panic

/-- `b[i..j]`. -/
def slice (b : Bytes) (i j : Nat) : Out Bytes :=
  if i ≤ j ∧ j ≤ b.length then .ok ((b.drop i).take (j - i)) else .panic

/-- `b[i] = v`. -/
def setIdx (b : Bytes) (i : Nat) (v : Byte) : Out Bytes :=
  if i < b.length then .ok (b.set i v) else .panic

/-- `dst.copy_from_slice(src)`: the new contents of `dst`. -/
def copyFromSlice (dst src : Bytes) : Out Bytes :=
  if dst.length = src.length then .ok src else .panic

/-- Mutate through `&mut b[i..]`. -/
def modifyFrom (b : Bytes) (i : Nat) (f : Bytes → Out Bytes) : Out Bytes := do
  let s ← sliceFrom b i
  let s' ← f s
  .ok (b.take i ++ s')

/-- Mutate through `&mut b[..n]`. -/
def modifyTo (b : Bytes) (n : Nat) (f : Bytes → Out Bytes) : Out Bytes := do
  let s ← sliceTo b n
  let s' ← f s
  .ok (s' ++ b.drop n)

/-- Mutate through `&mut b[i..][..n]`. -/
def modifyAt (b : Bytes) (i n : Nat) (f : Bytes → Out Bytes) : Out Bytes :=
  modifyFrom b i (fun s => modifyTo s n f)

/-- `u16::from_le_bytes([b0, b1])`. -/
def u16le (b0 b1 : Byte) : BitVec 16 := b0.setWidth 16 ||| (b1.setWidth 16 <<< 8)

/-- `u16::to_le_bytes`. -/
def u16bytes (w : BitVec 16) : Bytes := [w.setWidth 8, (w >>> 8).setWidth 8]

/-- `u32::from_le_bytes`. -/
def u32le (b0 b1 b2 b3 : Byte) : BitVec 32 :=
  b0.setWidth 32 ||| (b1.setWidth 32 <<< 8) ||| (b2.setWidth 32 <<< 16) ||| (b3.setWidth 32 <<< 24)

/-- `u32::to_le_bytes`. -/
def u32bytes (w : BitVec 32) : Bytes :=
  [w.setWidth 8, (w >>> 8).setWidth 8, (w >>> 16).setWidth 8, (w >>> 24).setWidth 8]

/-- `let b = &buf[..2]; u16::from_le_bytes([b[0], b[1]])`. -/
def readU16 (b : Bytes) : Out (BitVec 16) := do
  let s ← sliceTo b 2
  let b0 ← idx s 0
  let b1 ← idx s 1
  .ok (u16le b0 b1)

/-- `let b = &mut buf[..2]; raw = f(u16::from_le_bytes(b)); b.copy_from_slice(&raw.to_le_bytes())`. -/
def updU16 (b : Bytes) (f : BitVec 16 → BitVec 16) : Out Bytes :=
  modifyTo b 2 fun s => do
    let b0 ← idx s 0
    let b1 ← idx s 1
    copyFromSlice s (u16bytes (f (u16le b0 b1)))

/-- `bool as u16`. -/
def boolU16 (v : Bool) : BitVec 16 := if v then 1 else 0

/-! ## Basic evaluation lemmas -/

@[simp] theorem idx_nil (i : Nat) : idx [] i = .panic := by simp [idx]
@[simp] theorem idx_zero (x : Byte) (l : Bytes) : idx (x :: l) 0 = .ok x := by simp [idx]
@[simp] theorem idx_succ (x : Byte) (l : Bytes) (i : Nat) : idx (x :: l) (i+1) = idx l i := by
  simp [idx]

theorem idx_lt {b : Bytes} {i : Nat} (h : i < b.length) : idx b i = .ok b[i] := by
  simp [idx, h]
theorem idx_ge {b : Bytes} {i : Nat} (h : b.length ≤ i) : idx b i = .panic := by
  simp [idx, h]

theorem sliceFrom_ok {b : Bytes} {i : Nat} (h : i ≤ b.length) : sliceFrom b i = .ok (b.drop i) := by
  simp [sliceFrom, h]
theorem sliceTo_ok {b : Bytes} {i : Nat} (h : i ≤ b.length) : sliceTo b i = .ok (b.take i) := by
  simp [sliceTo, h]
theorem slice_ok {b : Bytes} {i j : Nat} (h : i ≤ j) (h' : j ≤ b.length) :
    slice b i j = .ok ((b.drop i).take (j - i)) := by
  simp [slice, h, h']

@[simp] theorem readU16_cons (b0 b1 : Byte) (l : Bytes) :
    readU16 (b0 :: b1 :: l) = .ok (u16le b0 b1) := by
  simp [readU16, sliceTo]

theorem readU16_short {b : Bytes} (h : b.length < 2) : readU16 b = .panic := by
  simp [readU16, sliceTo, Nat.not_le.mpr h]

@[simp] theorem updU16_cons (b0 b1 : Byte) (l : Bytes) (f) :
    updU16 (b0 :: b1 :: l) f = .ok (u16bytes (f (u16le b0 b1)) ++ l) := by
  simp [updU16, modifyTo, sliceTo, copyFromSlice, u16bytes]

theorem updU16_short {b : Bytes} (h : b.length < 2) (f) : updU16 b f = .panic := by
  simp [updU16, modifyTo, sliceTo, Nat.not_le.mpr h]

/-- A buffer of at least two bytes. -/
theorem exists_cons2 {b : Bytes} (h : 2 ≤ b.length) : ∃ b0 b1 l, b = b0 :: b1 :: l := by
  match b, h with
  | b0 :: b1 :: l, _ => exact ⟨b0, b1, l, rfl⟩

theorem getLsbD_u16le (b0 b1 : Byte) (i : Nat) :
    (u16le b0 b1).getLsbD i = if i < 8 then b0.getLsbD i else b1.getLsbD (i - 8) := by
  simp only [u16le, BitVec.getLsbD_or, BitVec.getLsbD_setWidth, BitVec.getLsbD_shiftLeft]
  by_cases h : i < 8
  · simp [h, show i < 16 by omega]
  · by_cases h' : i < 16
    · have : b0.getLsbD i = false := BitVec.getLsbD_of_ge _ _ (by omega)
      simp [h, h', this, show i - 8 < 16 by omega]
    · have : b1.getLsbD (i-8) = false := BitVec.getLsbD_of_ge _ _ (by omega)
      simp [h, h', this]

@[simp] theorem u16le_bytes (w : BitVec 16) :
    u16le (w.setWidth 8) ((w >>> 8).setWidth 8) = w := by
  apply BitVec.eq_of_getLsbD_eq
  intro i hi
  rw [getLsbD_u16le]
  simp only [BitVec.getLsbD_setWidth, BitVec.getLsbD_ushiftRight]
  split
  · simp [*]
  · have : i - 8 < 8 := by omega
    have e : 8 + (i - 8) = i := by omega
    simp [this, e]

theorem u16bytes_le (b0 b1 : Byte) : u16bytes (u16le b0 b1) = [b0, b1] := by
  unfold u16bytes
  congr 1
  · apply BitVec.eq_of_getLsbD_eq
    intro i hi
    simp only [BitVec.getLsbD_setWidth, getLsbD_u16le, hi, decide_true, Bool.true_and, if_true]
  · congr 1
    apply BitVec.eq_of_getLsbD_eq
    intro i hi
    simp [BitVec.getLsbD_ushiftRight, getLsbD_u16le, hi]

@[simp] theorem u16bytes_length (w : BitVec 16) : (u16bytes w).length = 2 := rfl

theorem u16le_toNat (b0 b1 : Byte) : (u16le b0 b1).toNat = b0.toNat + 256 * b1.toNat := by
  have h0 := b0.isLt
  have h1 := b1.isLt
  simp only [u16le, BitVec.toNat_or, BitVec.toNat_setWidth, BitVec.toNat_shiftLeft,
    Nat.shiftLeft_eq]
  rw [Nat.mod_eq_of_lt (a := b0.toNat) (by omega), Nat.mod_eq_of_lt (a := b1.toNat) (by omega),
    Nat.mod_eq_of_lt (by omega), Nat.or_comm, Nat.mul_comm,
    ← Nat.two_pow_add_eq_or_of_lt h0]
  omega

@[simp] theorem readU16_u16bytes (w : BitVec 16) (l : Bytes) :
    readU16 (u16bytes w ++ l) = .ok w := by
  simp [u16bytes]

end Dot15d4
