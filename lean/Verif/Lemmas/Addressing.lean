import Verif.Spec.Addressing
import Verif.Lemmas.FrameControl
/-! Helper lemmas for the addressing fields. -/
namespace Dot15d4
open Out FrameControl

theorem panBytes_some (p : BitVec 16) : Spec.panBytes (some p) = u16bytes p := by
  show [BitVec.ofNat 8 p.toNat, BitVec.ofNat 8 (p.toNat / 256)] = _
  unfold u16bytes
  have e0 : BitVec.ofNat 8 p.toNat = p.setWidth 8 := by
    apply BitVec.eq_of_toNat_eq; simp
  have e1 : BitVec.ofNat 8 (p.toNat / 256) = (p >>> 8).setWidth 8 := by
    apply BitVec.eq_of_toNat_eq; simp [Nat.shiftRight_eq_div_pow]
  rw [e0, e1]

theorem panBytes_length (p : Option (BitVec 16)) :
    (Spec.panBytes p).length = if p.isSome then 2 else 0 := by
  cases p <;> rfl

theorem addrBytes_length (a : Address) : (Spec.addrBytes a).length = a.mode.size := by
  cases a with
  | absent => rfl
  | short a => simp [Spec.addrBytes, Address.mode, AddressingMode.size, a.2]
  | extended a => simp [Spec.addrBytes, Address.mode, AddressingMode.size, a.2]

theorem Address.len_eq (a : Address) : a.len = a.mode.size := by cases a <;> rfl

theorem Address.mode_ne_unknown (a : Address) : a.mode ≠ .unknown := by cases a <;> simp [Address.mode]

theorem arrOfSlice_ok {n : Nat} {s : Bytes} (h : s.length = n) : arrOfSlice n s = .ok ⟨s, h⟩ := by
  simp [arrOfSlice, h]

theorem readAddress_append (pre : Bytes) (a : Address) (rest : Bytes) :
    AddressingFields.readAddress (pre ++ Spec.addrBytes a ++ rest) pre.length a.mode
      = .ok (some a) := by
  cases a with
  | absent => rfl
  | short v =>
    have hl : v.1.reverse.length = 2 := by simp [v.2]
    have hs : slice (pre ++ v.1.reverse ++ rest) pre.length (pre.length + 2) = .ok v.1.reverse := by
      rw [slice_ok (by omega) (by simp [v.2])]
      rw [List.append_assoc, List.drop_left]
      rw [show pre.length + 2 - pre.length = v.1.reverse.length by omega, List.take_left]
    simp only [Address.mode, AddressingFields.readAddress, Spec.addrBytes, hs, bind_ok,
      arrOfSlice_ok hl]
    simp [Arr.reverse]
  | extended v =>
    have hl : v.1.reverse.length = 8 := by simp [v.2]
    have hs : slice (pre ++ v.1.reverse ++ rest) pre.length (pre.length + 8) = .ok v.1.reverse := by
      rw [slice_ok (by omega) (by simp [v.2])]
      rw [List.append_assoc, List.drop_left]
      rw [show pre.length + 8 - pre.length = v.1.reverse.length by omega, List.take_left]
    simp only [Address.mode, AddressingFields.readAddress, Spec.addrBytes, hs, bind_ok,
      arrOfSlice_ok hl]
    simp [Arr.reverse]

/-- Every sufficiently long byte string starts with the encoding of an address of the mode. -/
theorem exists_addr (m : AddressingMode) (hm : m ≠ .unknown) (b : Bytes) (h : m.size ≤ b.length) :
    ∃ a : Address, a.mode = m ∧ b = Spec.addrBytes a ++ b.drop m.size := by
  cases m with
  | absent => exact ⟨.absent, rfl, rfl⟩
  | short =>
    have hl : (b.take 2).reverse.length = 2 := by
      have : 2 ≤ b.length := h
      simp; omega
    exact ⟨.short ⟨_, hl⟩, rfl, by simp [Spec.addrBytes, AddressingMode.size]⟩
  | extended =>
    have hl : (b.take 8).reverse.length = 8 := by
      have : 8 ≤ b.length := h
      simp; omega
    exact ⟨.extended ⟨_, hl⟩, rfl, by simp [Spec.addrBytes, AddressingMode.size]⟩
  | unknown => contradiction

theorem exists_pan (p : Bool) (b : Bytes) (h : (if p then 2 else 0) ≤ b.length) :
    ∃ q : Option (BitVec 16), q.isSome = p ∧
      b = Spec.panBytes q ++ b.drop (if p then 2 else 0) := by
  cases p with
  | false => exact ⟨none, rfl, by simp [Spec.panBytes]⟩
  | true =>
    obtain ⟨b0, b1, l, rfl⟩ := exists_cons2 (b := b) (by simpa using h)
    refine ⟨some (u16le b0 b1), rfl, ?_⟩
    rw [panBytes_some, u16bytes_le]; simp

/-- Decomposition of a buffer into the four fields. -/
theorem exists_addressing (f : PresentFlags) (hd : f.dstMode ≠ .unknown) (hs : f.srcMode ≠ .unknown)
    (b : Bytes) (h : (if f.dstPan then 2 else 0) + f.dstMode.size + (if f.srcPan then 2 else 0)
      + f.srcMode.size ≤ b.length) :
    ∃ dp d sp s rest, dp.isSome = f.dstPan ∧ d.mode = f.dstMode ∧ sp.isSome = f.srcPan ∧
      s.mode = f.srcMode ∧ b = Spec.addressing dp d sp s ++ rest := by
  obtain ⟨dp, h1, e1⟩ := exists_pan f.dstPan b (by omega)
  obtain ⟨d, h2, e2⟩ := exists_addr f.dstMode hd (b.drop (if f.dstPan then 2 else 0))
    (by simp only [List.length_drop]; omega)
  obtain ⟨sp, h3, e3⟩ := exists_pan f.srcPan
    ((b.drop (if f.dstPan then 2 else 0)).drop f.dstMode.size)
    (by simp only [List.length_drop]; omega)
  obtain ⟨s, h4, e4⟩ := exists_addr f.srcMode hs
    (((b.drop (if f.dstPan then 2 else 0)).drop f.dstMode.size).drop (if f.srcPan then 2 else 0))
    (by simp only [List.length_drop]; omega)
  refine ⟨dp, d, sp, s, (((b.drop (if f.dstPan then 2 else 0)).drop f.dstMode.size).drop
    (if f.srcPan then 2 else 0)).drop f.srcMode.size, h1, h2, h3, h4, ?_⟩
  simp only [Spec.addressing, List.append_assoc]
  rw [← e4, ← e3, ← e2, ← e1]

/-- Number of bytes given by flags. -/
def PresentFlags.size (f : PresentFlags) : Nat :=
  (if f.dstPan then 2 else 0) + f.dstMode.size + (if f.srcPan then 2 else 0) + f.srcMode.size

theorem addressing_length (dp d sp s) : (Spec.addressing dp d sp s).length =
    (if dp.isSome then 2 else 0) + d.mode.size + (if sp.isSome then 2 else 0) + s.mode.size := by
  simp only [Spec.addressing, List.length_append, panBytes_length, addrBytes_length]

/-- Reading the four fields back from their concatenation. -/
theorem read_addressing (fc : Bytes) (dp d sp s) (rest : Bytes)
    (hf : AddressingFields.flags ⟨Spec.addressing dp d sp s ++ rest, fc⟩ =
      .ok (some ⟨dp.isSome, d.mode, sp.isSome, s.mode⟩)) :
    let af : AddressingFields := ⟨Spec.addressing dp d sp s ++ rest, fc⟩
    af.dstPanId = .ok dp ∧ af.dstAddress = .ok (some d) ∧ af.srcPanId = .ok sp ∧
      af.srcAddress = .ok (some s) := by
  intro af
  have hf' : af.flags = .ok (some ⟨dp.isSome, d.mode, sp.isSome, s.mode⟩) := hf
  refine ⟨?_, ?_, ?_, ?_⟩
  · simp only [AddressingFields.dstPanId, hf', bind_ok]
    cases dp with
    | none => rfl
    | some p =>
      simp only [Option.isSome_some]
      show (readU16 (Spec.addressing _ _ _ _ ++ rest) >>= _) = _
      simp only [Spec.addressing, panBytes_some, List.append_assoc, readU16_u16bytes, bind_ok]
  · simp only [AddressingFields.dstAddress, hf', bind_ok]
    have := readAddress_append (Spec.panBytes dp) d (Spec.panBytes sp ++ Spec.addrBytes s ++ rest)
    rw [panBytes_length] at this
    rw [← this]
    simp only [af, Spec.addressing, List.append_assoc]
  · simp only [AddressingFields.srcPanId, hf', bind_ok]
    cases sp with
    | none => rfl
    | some p =>
      simp only [Option.isSome_some]
      have e : (if dp.isSome then 2 else 0) + d.mode.size =
          (Spec.panBytes dp ++ Spec.addrBytes d).length := by
        simp only [List.length_append, panBytes_length, addrBytes_length]
      rw [e]
      have : af.buffer = (Spec.panBytes dp ++ Spec.addrBytes d) ++
          (u16bytes p ++ (Spec.addrBytes s ++ rest)) := by
        simp only [af, Spec.addressing, panBytes_some, List.append_assoc]
      rw [this, sliceFrom_ok (by simp), List.drop_left]
      simp only [bind_ok, readU16_u16bytes]
  · simp only [AddressingFields.srcAddress, hf', bind_ok]
    have := readAddress_append (Spec.panBytes dp ++ Spec.addrBytes d ++ Spec.panBytes sp) s rest
    simp only [List.length_append, panBytes_length, addrBytes_length] at this
    exact this

theorem flags_cons (b : Bytes) (o0 o1 : Byte) (l : Bytes) :
    AddressingFields.flags ⟨b, o0 :: o1 :: l⟩ =
      .ok (addressPresentFlags (wVersion (u16le o0 o1)) (wDstMode (u16le o0 o1))
        (wSrcMode (u16le o0 o1)) (wPanComp (u16le o0 o1))) := by
  simp [AddressingFields.flags, FrameControl.frameVersion, FrameControl.dstMode,
    FrameControl.srcMode, FrameControl.panIdCompression]

theorem flags_modes {v d s c f} (h : addressPresentFlags v d s c = some f) :
    f.dstMode = d ∧ f.srcMode = s := by
  revert h; cases v <;> cases d <;> cases s <;> cases c <;> simp [addressPresentFlags] <;>
    (intro h; subst h; simp)

theorem new_none {b fc : Bytes} (hf : AddressingFields.flags ⟨b, fc⟩ = .ok none) :
    AddressingFields.new b fc = .err := by
  simp [AddressingFields.new, AddressingFields.checkLen, hf]

theorem new_some {b fc : Bytes} {f : PresentFlags}
    (hf : AddressingFields.flags ⟨b, fc⟩ = .ok (some f)) :
    AddressingFields.new b fc = if f.size ≤ b.length then .ok ⟨b, fc⟩ else .err := by
  simp only [AddressingFields.new, AddressingFields.checkLen, hf, bind_ok, PresentFlags.size]
  by_cases h : (if f.dstPan then 2 else 0) + f.dstMode.size + (if f.srcPan then 2 else 0)
      + f.srcMode.size ≤ b.length <;> simp [h]

theorem modeLen_eq {m : AddressingMode} (h : m ≠ .unknown) :
    AddressingFields.modeLen m = .ok m.size := by
  cases m <;> first | contradiction | rfl

/-! Writing. -/

/-- Bytes of an optional address. -/
def optAddrBytes : Option Address → Bytes
  | none => []
  | some a => Spec.addrBytes a

theorem modifyAt_append (pre mid mid' post : Bytes) (f : Bytes → Out Bytes)
    (hf : f mid = .ok mid') :
    modifyAt (pre ++ mid ++ post) pre.length mid.length f = .ok (pre ++ mid' ++ post) := by
  unfold modifyAt modifyFrom modifyTo
  rw [List.append_assoc, sliceFrom_ok (by simp), List.drop_left]
  simp only [bind_ok]
  rw [sliceTo_ok (by simp), List.take_left, List.drop_left, List.take_left]
  simp [hf]

theorem writePan_append (pre mid : Bytes) (p : Option (BitVec 16))
    (h : (Spec.panBytes p).length ≤ mid.length) :
    AddressingFields.writePan (pre ++ mid) pre.length p =
      .ok (pre ++ Spec.panBytes p ++ mid.drop (Spec.panBytes p).length,
        (pre ++ Spec.panBytes p).length) := by
  cases p with
  | none => simp [AddressingFields.writePan, Spec.panBytes]
  | some p =>
    rw [panBytes_some] at *
    unfold AddressingFields.writePan
    have e : pre ++ mid = pre ++ mid.take 2 ++ mid.drop 2 := by simp
    have hl : (mid.take 2).length = 2 := by simp at h ⊢; omega
    have := modifyAt_append pre (mid.take 2) (u16bytes p) (mid.drop 2)
      (fun s => copyFromSlice s (u16bytes p)) (by simp [copyFromSlice] at *; omega)
    rw [hl] at this
    rw [e]
    simp only
    rw [this]
    simp

theorem writeAddr_append (pre mid : Bytes) (a : Option Address)
    (h : (optAddrBytes a).length ≤ mid.length) :
    AddressingFields.writeAddr (pre ++ mid) pre.length a =
      .ok (pre ++ optAddrBytes a ++ mid.drop (optAddrBytes a).length,
        (pre ++ optAddrBytes a).length) := by
  cases a with
  | none => simp [AddressingFields.writeAddr, optAddrBytes]
  | some a =>
    simp only [optAddrBytes] at *
    unfold AddressingFields.writeAddr
    have hal : a.len = (Spec.addrBytes a).length := by rw [addrBytes_length, Address.len_eq]
    have e : pre ++ mid = pre ++ mid.take a.len ++ mid.drop a.len := by simp
    have hl : (mid.take a.len).length = a.len := by simp; omega
    have := modifyAt_append pre (mid.take a.len) (Spec.addrBytes a) (mid.drop a.len)
      (AddressingFields.copyAddr a) (by
        cases a with
        | absent => simp [Address.len, Spec.addrBytes, AddressingFields.copyAddr]
        | short v => simp only [AddressingFields.copyAddr, Arr.reverse, copyFromSlice, hl, Spec.addrBytes]; simp [Address.len, v.2]
        | extended v => simp only [AddressingFields.copyAddr, Arr.reverse, copyFromSlice, hl, Spec.addrBytes]; simp [Address.len, v.2])
    rw [hl] at this
    rw [e]
    simp only
    rw [this]
    simp [hal]

/-- Encoding of an addressing representation. -/
def reprBytes (r : AddressingFieldsRepr) : Bytes :=
  Spec.panBytes r.dstPanId ++ optAddrBytes r.dstAddress ++ Spec.panBytes r.srcPanId
    ++ optAddrBytes r.srcAddress

theorem writeFields_eq (b : Bytes) (r : AddressingFieldsRepr)
    (h : (reprBytes r).length ≤ b.length) :
    AddressingFields.writeFields b r = .ok (reprBytes r ++ b.drop (reprBytes r).length) := by
  obtain ⟨p, a, q, c⟩ := r
  simp only [reprBytes, List.length_append] at h
  unfold AddressingFields.writeFields
  have h1 := writePan_append [] b p (by omega)
  simp only [List.nil_append, List.length_nil] at h1
  simp only [h1, bind_ok]
  rw [writeAddr_append (Spec.panBytes p) _ a (by simp; omega)]
  simp only [bind_ok]
  rw [writePan_append (Spec.panBytes p ++ optAddrBytes a) _ q (by simp; omega)]
  simp only [bind_ok]
  rw [writeAddr_append (Spec.panBytes p ++ optAddrBytes a ++ Spec.panBytes q) _ c (by simp; omega)]
  simp only [bind_ok, reprBytes, List.drop_drop, List.length_append]

end Dot15d4
