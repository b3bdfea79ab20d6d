import Verif.Lemmas.Addressing
/-! # C04-C08: addresses and addressing fields -/
namespace Dot15d4.Props
open Dot15d4 Out Spec

/-- **C04**.  PAN identifier presence is exactly that of the standard's tables, for every
version, pair of (valid) addressing modes and compression bit; combinations the tables do not
allow are rejected; the modes are passed through unchanged. -/
theorem C04_pan_presence (v : FrameVersion) (dst src : AddressingMode) (comp : Bool)
    (hd : dst ≠ .unknown) (hs : src ≠ .unknown) :
    addressPresentFlags v dst src comp =
      (pans v dst src comp).map (fun p => ⟨p.dst, dst, p.src, src⟩) := by
  revert hd hs; cases v <;> cases dst <;> cases src <;> cases comp <;> decide

example : addressPresentFlags .v2020 .short .extended true = some ⟨true, .short, false, .extended⟩ :=
  C04_pan_presence _ _ _ _ (by decide) (by decide)

/-- C04's hypotheses matter: with a reserved source or destination mode the 2020 branch still
answers (the callers `DataFrame::new` and `EnhancedBeacon::new` filter these out). -/
theorem C04_reserved_mode_accepted :
    addressPresentFlags .v2020 .unknown .absent false = some ⟨true, .unknown, false, .absent⟩ := by
  decide

/-- Each table entry allowed by both rules for versions 2003/2006 has at least one address. -/
theorem C04_2006_needs_address (v : FrameVersion) (hv : v = .v2003 ∨ v = .v2006) (comp : Bool) :
    addressPresentFlags v .absent .absent comp = none := by
  rcases hv with rfl | rfl <;> cases comp <;> rfl

/-- The table entry selected by a frame control field. -/
def fcPans (o0 o1 : Byte) : Option Pans :=
  pans (decodeFc o0 o1).frameVersion (decodeFc o0 o1).dstMode (decodeFc o0 o1).srcMode
    (decodeFc o0 o1).panIdCompression

/-- Number of octets the standard's tables require for the addressing fields. -/
def fcAddrLen (o0 o1 : Byte) (p : Pans) : Nat :=
  (if p.dst then 2 else 0) + (decodeFc o0 o1).dstMode.size + (if p.src then 2 else 0)
    + (decodeFc o0 o1).srcMode.size

private theorem flags_spec (b : Bytes) (o0 o1 : Byte) (l : Bytes)
    (hd : (decodeFc o0 o1).dstMode ≠ .unknown) (hs : (decodeFc o0 o1).srcMode ≠ .unknown) :
    AddressingFields.flags ⟨b, o0 :: o1 :: l⟩ = .ok ((fcPans o0 o1).map (fun p =>
      ⟨p.dst, (decodeFc o0 o1).dstMode, p.src, (decodeFc o0 o1).srcMode⟩)) := by
  rw [flags_cons]
  have h := wRepr_eq_spec o0 o1
  have e1 := congrArg FrameControlRepr.frameVersion h
  have e2 := congrArg FrameControlRepr.dstMode h
  have e3 := congrArg FrameControlRepr.srcMode h
  have e4 := congrArg FrameControlRepr.panIdCompression h
  simp only [wRepr] at e1 e2 e3 e4
  rw [e1, e2, e3, e4, C04_pan_presence _ _ _ _ hd hs, fcPans]

/-- **C05**, acceptance: for known modes the reader is constructed exactly when the table has an
entry and the buffer is long enough for it. -/
theorem C05_new_iff (b : Bytes) (o0 o1 : Byte) (l : Bytes)
    (hd : (decodeFc o0 o1).dstMode ≠ .unknown) (hs : (decodeFc o0 o1).srcMode ≠ .unknown) :
    AddressingFields.new b (o0 :: o1 :: l) =
      (match fcPans o0 o1 with
       | none => .err
       | some p => if fcAddrLen o0 o1 p ≤ b.length then .ok ⟨b, o0 :: o1 :: l⟩ else .err) := by
  have hf := flags_spec b o0 o1 l hd hs
  cases hp : fcPans o0 o1 with
  | none => rw [hp] at hf; exact new_none hf
  | some p => rw [hp] at hf; exact new_some hf

example : AddressingFields.new [1, 2, 3] [0x41, 0xd8] = .err :=
  C05_new_iff [1, 2, 3] 0x41 0xd8 [] (by decide) (by decide)

/-- **C05**, layout: whenever the reader is constructed, the buffer *is* the concatenation of the
four fields it reports (destination PAN, destination address, source PAN, source address, in
this order, from offset 0) followed by the rest; `len()` is the size of that prefix; the PAN ids
are present exactly as the table says; no getter panics. -/
theorem C05_layout (b : Bytes) (o0 o1 : Byte) (l : Bytes)
    (hd : (decodeFc o0 o1).dstMode ≠ .unknown) (hs : (decodeFc o0 o1).srcMode ≠ .unknown)
    (af : AddressingFields) (h : AddressingFields.new b (o0 :: o1 :: l) = .ok af) :
    ∃ (p : Pans) (dp : Option (BitVec 16)) (d : Address) (sp : Option (BitVec 16)) (s : Address)
      (rest : Bytes),
      fcPans o0 o1 = some p ∧ dp.isSome = p.dst ∧ sp.isSome = p.src ∧
      d.mode = (decodeFc o0 o1).dstMode ∧ s.mode = (decodeFc o0 o1).srcMode ∧
      b = Spec.addressing dp d sp s ++ rest ∧
      af.dstPanId = .ok dp ∧ af.dstAddress = .ok (some d) ∧
      af.srcPanId = .ok sp ∧ af.srcAddress = .ok (some s) ∧
      af.len = .ok (Spec.addressing dp d sp s).length := by
  have hf := flags_spec b o0 o1 l hd hs
  cases hp : fcPans o0 o1 with
  | none => rw [hp] at hf; rw [new_none hf] at h; exact absurd h (by simp)
  | some p =>
    rw [hp, Option.map_some] at hf
    rw [new_some hf] at h
    split at h
    · rename_i hlen
      obtain ⟨dp, d, sp, s, rest, h1, h2, h3, h4, e⟩ := exists_addressing
        ⟨p.dst, (decodeFc o0 o1).dstMode, p.src, (decodeFc o0 o1).srcMode⟩ hd hs b hlen
      simp only [Out.ok.injEq] at h
      simp only at h1 h2 h3 h4
      subst h
      refine ⟨p, dp, d, sp, s, rest, rfl, h1, h3, h2, h4, e, ?_⟩
      have hf' : AddressingFields.flags ⟨Spec.addressing dp d sp s ++ rest, o0 :: o1 :: l⟩ =
          .ok (some ⟨dp.isSome, d.mode, sp.isSome, s.mode⟩) := by
        rw [← e, hf, h1, h2, h3, h4]
      obtain ⟨r1, r2, r3, r4⟩ := read_addressing (o0 :: o1 :: l) dp d sp s rest hf'
      rw [← e] at r1 r2 r3 r4
      refine ⟨r1, r2, r3, r4, ?_⟩
      have hw := wRepr_eq_spec o0 o1
      have e2 := congrArg FrameControlRepr.dstMode hw
      have e3 := congrArg FrameControlRepr.srcMode hw
      simp only [wRepr] at e2 e3
      simp only [AddressingFields.len, r1, r3, bind_ok, FrameControl.dstMode, FrameControl.srcMode,
        readU16_cons, e2, e3, modeLen_eq hd, modeLen_eq hs, addressing_length, h2, h4]
    · exact absurd h (by simp)

/-- Non-vacuity for C05: a data frame control word (2006, short/extended, compressed). -/
example : ∃ af, AddressingFields.new [1, 2, 3, 4, 5, 6, 7, 8, 9, 10, 11, 12, 13] [0x41, 0xd8] = .ok af ∧
    af.dstAddress = .ok (some (.short ⟨[4, 3], rfl⟩)) ∧ af.len = .ok 12 := ⟨_, rfl, by decide, by decide⟩

/-- With a reserved mode the reader can be constructed but `len()` panics: why C05 assumes known
modes (which `DataFrame::new` guarantees, C10). -/
theorem C05_reserved_mode_len_panics :
    ∃ af, AddressingFields.new [0, 0] [0x41, 0x24] = .ok af ∧ af.len = .panic :=
  ⟨_, rfl, by decide⟩

/-- **C06**, writing: `write_fields` puts exactly the encoding of the present fields at the start
of the buffer and leaves every following byte unchanged. -/
theorem C06_write (b : Bytes) (dp sp : Option (BitVec 16)) (d s : Address)
    (h : (Spec.addressing dp d sp s).length ≤ b.length) :
    AddressingFields.writeFields b ⟨dp, some d, sp, some s⟩ =
      .ok (Spec.addressing dp d sp s ++ b.drop (Spec.addressing dp d sp s).length) :=
  writeFields_eq b ⟨dp, some d, sp, some s⟩ h

example : AddressingFields.writeFields [9, 9, 9, 9, 9] ⟨some 0xabcd, some (.short ⟨[1, 2], rfl⟩), none, some .absent⟩ =
    .ok [0xcd, 0xab, 2, 1, 9] :=
  C06_write [9, 9, 9, 9, 9] (some 0xabcd) none (.short ⟨[1, 2], rfl⟩) .absent (by decide)

/-- **C06**, a missing address (`None`) is written like an absent one. -/
theorem C06_write_none (b : Bytes) (dp sp : Option (BitVec 16)) (d s : Option Address)
    (h : (Spec.addressing dp (d.getD .absent) sp (s.getD .absent)).length ≤ b.length) :
    AddressingFields.writeFields b ⟨dp, d, sp, s⟩ =
      .ok (Spec.addressing dp (d.getD .absent) sp (s.getD .absent) ++
        b.drop (Spec.addressing dp (d.getD .absent) sp (s.getD .absent)).length) := by
  have e : reprBytes ⟨dp, d, sp, s⟩ = Spec.addressing dp (d.getD .absent) sp (s.getD .absent) := by
    cases d <;> cases s <;> rfl
  rw [← e] at h ⊢
  exact writeFields_eq b ⟨dp, d, sp, s⟩ h

example : AddressingFields.writeFields [9, 9, 9] ⟨none, none, some 0x1234, none⟩ = .ok [0x34, 0x12, 9] :=
  C06_write_none [9, 9, 9] none (some 0x1234) none none (by decide)

/-- **C06**, round trip: if the PAN ids and address kinds match the frame control's table entry,
then after writing, the reader is accepted and returns what was written, and its `len()` is the
representation's `buffer_len`. -/
theorem C06_roundtrip (b : Bytes) (dp sp : Option (BitVec 16)) (d s : Address)
    (o0 o1 : Byte) (l : Bytes) (hlen : (Spec.addressing dp d sp s).length ≤ b.length)
    (hd : d.mode = (decodeFc o0 o1).dstMode) (hs : s.mode = (decodeFc o0 o1).srcMode)
    (hp : fcPans o0 o1 = some ⟨dp.isSome, sp.isSome⟩) :
    ∃ b' af, AddressingFields.writeFields b ⟨dp, some d, sp, some s⟩ = .ok b' ∧
      b'.length = b.length ∧
      AddressingFields.new b' (o0 :: o1 :: l) = .ok af ∧
      AddressingFieldsRepr.parse af = .ok ⟨dp, some d, sp, some s⟩ ∧
      af.len = AddressingFieldsRepr.bufferLen ⟨dp, some d, sp, some s⟩ (decodeFc o0 o1) := by
  have hd' := hd ▸ d.mode_ne_unknown
  have hs' := hs ▸ s.mode_ne_unknown
  refine ⟨Spec.addressing dp d sp s ++ b.drop (Spec.addressing dp d sp s).length,
    ⟨Spec.addressing dp d sp s ++ b.drop (Spec.addressing dp d sp s).length, o0 :: o1 :: l⟩,
    C06_write b dp sp d s hlen, by simp; omega, ?_, ?_, ?_⟩
  · rw [C05_new_iff _ _ _ _ hd' hs', hp]
    have : fcAddrLen o0 o1 ⟨dp.isSome, sp.isSome⟩ ≤
        (Spec.addressing dp d sp s ++ b.drop (Spec.addressing dp d sp s).length).length := by
      simp only [fcAddrLen, ← hd, ← hs, List.length_append, addressing_length]; omega
    simp only [this, if_true]
  all_goals
    have hf := flags_spec (Spec.addressing dp d sp s ++ b.drop (Spec.addressing dp d sp s).length)
      o0 o1 l hd' hs'
    rw [hp, ← hd, ← hs] at hf
    obtain ⟨r1, r2, r3, r4⟩ := read_addressing (o0 :: o1 :: l) dp d sp s _ hf
  · simp only [AddressingFieldsRepr.parse, r1, r2, r3, r4, bind_ok]
  · have hw := wRepr_eq_spec o0 o1
    have e2 := congrArg FrameControlRepr.dstMode hw
    have e3 := congrArg FrameControlRepr.srcMode hw
    simp only [wRepr] at e2 e3
    simp only [AddressingFields.len, r1, r3, bind_ok, FrameControl.dstMode, FrameControl.srcMode,
        readU16_cons, e2, e3, modeLen_eq hd', modeLen_eq hs', AddressingFieldsRepr.bufferLen]

/-- Non-vacuity for C06: both PAN ids present (2006, no compression, short/short). -/
example : fcPans 0x01 0x98 = some ⟨true, true⟩ ∧
    (Address.short ⟨[1, 2], rfl⟩).mode = (decodeFc 0x01 0x98).dstMode ∧
    (Address.short ⟨[3, 4], rfl⟩).mode = (decodeFc 0x01 0x98).srcMode := by decide

/-- `AddressingFieldsRepr::emit` is unimplemented: calling it always panics. -/
theorem C06_repr_emit_unimplemented (r af) : AddressingFieldsRepr.emit r af = .panic := rfl

end Dot15d4.Props
