import Verif.Props.EmitExact

/-!
# C60: a set flag without the field it announces

`validate` does not look at the security flag.  `emit` writes no auxiliary security header, but places
the payload behind the one it reads back.
-/

namespace Dot15d4.Props
open Out Spec

/-- With the security flag set the payload is placed at least one octet behind the addressing fields:
if it would reach the end of the buffer from there, it does not fit. -/
theorem setPayload_secured (o0 o1 : Byte) (l p : Bytes)
    (hd : (decodeFc o0 o1).dstMode ≠ .unknown) (hs : (decodeFc o0 o1).srcMode ≠ .unknown)
    (hsec : (decodeFc o0 o1).securityEnabled = true)
    (hr : let s := if (decodeFc o0 o1).seqNoSuppression then 0 else 1
      l.length ≤ s + declaredLen (decodeFc o0 o1) (l.length - s) + p.length) :
    DataFrame.setPayload (o0 :: o1 :: l) p = .panic := by
  obtain ⟨ht, -⟩ := setPayload_total o0 o1 l p
  cases hq : DataFrame.setPayload (o0 :: o1 :: l) p with
  | panic => rfl
  | err => exact absurd hq ht.ne
  | ok d =>
    exfalso
    dsimp only at hr
    by_cases hl : (if (decodeFc o0 o1).seqNoSuppression then 0 else 1) ≤ l.length
    · have he := addrEnd_any o0 o1 l hd hs hl
      generalize declaredLen (decodeFc o0 o1) (l.length - if (decodeFc o0 o1).seqNoSuppression then 0 else 1) = k at *
      generalize (if (decodeFc o0 o1).seqNoSuppression then 0 else 1) = s at *
      simp only [DataFrame.setPayload, df_frameControl, bind_ok, he, fc_security, hsec, if_true] at hq
      obtain ⟨o, h1, hq⟩ := bind_eq_ok.mp hq
      obtain ⟨h, -, h1⟩ := bind_eq_ok.mp h1
      obtain ⟨h', -, h1⟩ := bind_eq_ok.mp h1
      obtain ⟨n, hn, h1⟩ := bind_eq_ok.mp h1
      obtain ⟨c, -, hn⟩ := bind_eq_ok.mp (show (do
        let c ← AuxSecHeader.securityControl h'
        .ok (1 + SecurityLevel.micLength (SecurityControl.securityLevel c)) : Out Nat) = .ok n from hn)
      cases hn
      cases h1
      obtain ⟨o', h2, hq⟩ := bind_eq_ok.mp hq
      have ho : 2 + s + k + 1 ≤ o' := by
        obtain ⟨v, -, h2⟩ := bind_eq_ok.mp h2
        cases v
        · cases h2; omega
        · obtain ⟨_, -, h2⟩ := bind_eq_ok.mp h2
          obtain ⟨_, -, h2⟩ := bind_eq_ok.mp h2
          obtain ⟨_, -, h2⟩ := bind_eq_ok.mp h2
          cases h2; omega
      rw [modifyFrom] at hq
      obtain ⟨r, h3, hq⟩ := bind_eq_ok.mp hq
      obtain ⟨r', h4, -⟩ := bind_eq_ok.mp hq
      rw [copyFromSlice] at h4
      split at h4
      · rename_i e
        rw [sliceFrom] at h3
        split at h3
        · cases h3
          simp at e
          simp at *
          omega
        · cases h3
      · cases h4
    · rw [show DataFrame.setPayload (o0 :: o1 :: l) p = .panic from ?_] at hq
      · cases hq
      · simp only [DataFrame.setPayload, df_frameControl, bind_ok,
          addrEnd_short o0 o1 l (by omega)]
        rfl

/-- **C60**, the security flag: a frame with a payload that can be emitted cannot be emitted any more if
its security flag is set, although `validate` still accepts it. -/
theorem C60_security_panics (f : FrameRepr) (hp : f.payload.isSome)
    (hb : f.frameControl.iePresent = false) (hs : f.frameControl.securityEnabled = false)
    (hw : Writable f.frameControl) (n : Nat) (hn : f.bufferLen = .ok n) (d : Bytes)
    (hd : f.emit (List.replicate n 0) = .ok d) :
    let g := { f with frameControl := { f.frameControl with securityEnabled := true } }
    g.validate = f.validate ∧ g.bufferLen = .ok n ∧ g.emit (List.replicate n 0) = .panic := by
  intro g
  have hw' : Writable g.frameControl := hw
  obtain ⟨n', hn', h⟩ := C60_elements_panics_iff f (.inr ⟨hb, hs⟩) hw
  rw [hn] at hn'
  cases hn'
  rcases h with ⟨⟨-, -, he⟩, -⟩ | ⟨-, h⟩
  swap
  · rw [hd] at h; cases h
  have hg : g.bufferLen = .ok n := hn
  refine ⟨rfl, hg, ?_⟩
  obtain ⟨hl, o0, o1, ho, h⟩ := emit_until_payload g hw'
  rw [hg] at hl
  cases hl
  rcases h with ⟨-, l, k, e⟩ | ⟨-, e⟩
  · rw [e]
    obtain ⟨p, hp'⟩ := Option.isSome_iff_exists.1 hp
    have : g.payload = some p := hp'
    rw [this]
    refine setPayload_secured o0 o1 l p (by rw [ho]; exact hw.2.1) (by rw [ho]; exact hw.2.2)
      (by rw [ho]) ?_
    rw [ho, k]
    have := he hp
    rw [hp'] at this
    exact this.ge
  · exact e

/-! ## The flag for information elements -/

theorem headerNext_offset {s : IeIter} {r : Option HeaderIe × IeIter} (h : headerNext s = .ok r) :
    s.offset ≤ r.2.offset := by
  rw [headerNext] at h
  split at h
  · cases h; exact Nat.le_refl _
  · obtain ⟨rest, -, h⟩ := bind_eq_ok.mp h
    obtain ⟨q, -, h⟩ := bind_eq_ok.mp h
    cases q with
    | none => cases h; exact Nat.le_refl _
    | some ie =>
      obtain ⟨_, -, h⟩ := bind_eq_ok.mp h
      obtain ⟨n, -, h⟩ := bind_eq_ok.mp h
      cases h
      exact Nat.le_add_right _ _

theorem drain_headerNext_offset (k : Nat) : ∀ (s : IeIter) (r : List HeaderIe × IeIter),
    drain headerNext k s = .ok r → s.offset ≤ r.2.offset := by
  induction k with
  | zero => intro s r h; cases h; exact Nat.le_refl _
  | succ k ih =>
    intro s r h
    obtain ⟨⟨q, s'⟩, h1, h⟩ := bind_eq_ok.mp h
    have := headerNext_offset h1
    cases q with
    | none => cases h; exact this
    | some a =>
      obtain ⟨t, h2, h⟩ := bind_eq_ok.mp h
      cases h
      exact Nat.le_trans this (show s'.offset ≤ t.2.offset from ih _ _ h2)

/-- Two octets and more are read as one element at least. -/
theorem elements_len_two {d : Bytes} (hd : 2 ≤ d.length) {n : Nat}
    (h : InformationElements.len d = .ok n) : 2 ≤ n := by
  obtain ⟨r, h1, h⟩ := bind_eq_ok.mp h
  obtain ⟨p, -, h⟩ := bind_eq_ok.mp h
  cases h
  rw [InformationElements.headerDrain] at h1
  obtain ⟨⟨q, s'⟩, h2, h1⟩ := bind_eq_ok.mp h1
  have h3 : s'.offset ≤ r.2.offset := by
    cases q with
    | none => cases h1; exact Nat.le_refl _
    | some a =>
      obtain ⟨t, h4, h1⟩ := bind_eq_ok.mp h1
      cases h1
      exact (drain_headerNext_offset _ _ _ h4 : s'.offset ≤ t.2.offset)
  have h5 : 2 ≤ s'.offset := by
    rw [headerNext] at h2
    have he : (InformationElements.headerIter d).terminated = false := by
      cases d with
      | nil => simp at hd
      | cons => rfl
    rw [he] at h2
    obtain ⟨rest, h6, h2⟩ := bind_eq_ok.mp h2
    have : rest = d := by
      rw [InformationElements.headerIter, sliceFrom_ok (Nat.zero_le _)] at h6
      cases h6; rfl
    subst this
    rw [HeaderIe.new, if_pos hd] at h2
    obtain ⟨q', h7, h2⟩ := bind_eq_ok.mp h2
    cases h7
    obtain ⟨_, -, h2⟩ := bind_eq_ok.mp h2
    obtain ⟨m, -, h2⟩ := bind_eq_ok.mp h2
    cases h2
    simp only [InformationElements.headerIter]
    omega
  omega

/-- One octet or none is read as no element. -/
theorem elements_short {d : Bytes} (hd : d.length ≤ 1) :
    InformationElements.new d = .ok d ∧ InformationElements.len d = .ok 0 := by
  match d with
  | [] => exact ⟨rfl, rfl⟩
  | [a] => exact ⟨rfl, rfl⟩
  | _ :: _ :: _ => simp at hd

theorem setPayload_elements (o0 o1 : Byte) (l p : Bytes)
    (hd : (decodeFc o0 o1).dstMode ≠ .unknown) (hs : (decodeFc o0 o1).srcMode ≠ .unknown)
    (hsec : (decodeFc o0 o1).securityEnabled = false) (hie : (decodeFc o0 o1).iePresent = true)
    (hr : let s := if (decodeFc o0 o1).seqNoSuppression then 0 else 1
      s ≤ l.length ∧ s + declaredLen (decodeFc o0 o1) (l.length - s) + p.length = l.length) :
    (2 ≤ p.length ∧ DataFrame.setPayload (o0 :: o1 :: l) p = .panic) ∨
    (p.length ≤ 1 ∧ ∃ d, DataFrame.setPayload (o0 :: o1 :: l) p = .ok d) := by
  dsimp only at hr
  have he := addrEnd_any o0 o1 l hd hs hr.1
  have e : DataFrame.setPayload (o0 :: o1 :: l) p = (do
      let o ← DataFrame.addrEnd (o0 :: o1 :: l)
      let r ← sliceFrom (o0 :: o1 :: l) o
      let ie ← (InformationElements.new r).toOption
      let ie ← ofSome ie
      let n ← InformationElements.len ie
      modifyFrom (o0 :: o1 :: l) (o + n) fun s => copyFromSlice s p) := by
    simp only [DataFrame.setPayload, DataFrame.informationElements, df_frameControl, bind_ok,
      fc_security, hsec, fc_ie, hie, he, Bool.false_eq_true, if_false, if_true]
    cases hx : sliceFrom (o0 :: o1 :: l) _ with
    | panic => rfl
    | err => rfl
    | ok r =>
      simp only [bind_ok]
      cases (InformationElements.new r).toOption with
      | panic => rfl
      | err => rfl
      | ok q =>
        simp only [bind_ok]
        cases q with
        | none => rfl
        | some ie =>
          simp only [ofSome, bind_ok]
          cases InformationElements.len ie <;> rfl
  generalize declaredLen (decodeFc o0 o1) (l.length - if (decodeFc o0 o1).seqNoSuppression then 0 else 1) = k at *
  generalize (if (decodeFc o0 o1).seqNoSuppression then 0 else 1) = s at *
  obtain ⟨-, hr⟩ := hr
  rw [he, bind_ok, sliceFrom_ok (by simp; omega), bind_ok] at e
  generalize hx : (o0 :: o1 :: l).drop (2 + s + k) = r at e
  have hrl : r.length = p.length := by rw [← hx]; simp; omega
  by_cases hp : p.length ≤ 1
  · obtain ⟨h1, h2⟩ := elements_short (d := r) (by omega)
    refine .inr ⟨hp, ?_⟩
    rw [e, h1]
    change ∃ d, (do
      let n ← InformationElements.len r
      modifyFrom (o0 :: o1 :: l) (2 + s + k + n) fun s => copyFromSlice s p) = _
    rw [h2, bind_ok, Nat.add_zero, modifyFrom, sliceFrom_ok (by simp; omega), bind_ok, hx, copyFromSlice,
      if_pos hrl]
    exact ⟨_, rfl⟩
  · refine .inl ⟨by omega, ?_⟩
    obtain ⟨ht, -⟩ := setPayload_total o0 o1 l p
    cases hq : DataFrame.setPayload (o0 :: o1 :: l) p with
    | panic => rfl
    | err => exact absurd hq ht.ne
    | ok d =>
      exfalso
      rw [e] at hq
      cases hn : InformationElements.new r with
      | panic => rw [hn] at hq; cases hq
      | err => rw [hn] at hq; cases hq
      | ok ie =>
        have : ie = r := by
          rw [InformationElements.new] at hn
          obtain ⟨c, -, hn⟩ := bind_eq_ok.mp hn
          cases c <;> cases hn
          rfl
        subst this
        rw [hn] at hq
        obtain ⟨n, h2, hq⟩ := bind_eq_ok.mp (show (do
          let n ← InformationElements.len ie
          modifyFrom (o0 :: o1 :: l) (2 + s + k + n) fun s => copyFromSlice s p) = .ok d from hq)
        have h3 := elements_len_two (by omega) h2
        rw [modifyFrom] at hq
        obtain ⟨r', h4, hq⟩ := bind_eq_ok.mp hq
        obtain ⟨r'', h5, -⟩ := bind_eq_ok.mp hq
        rw [copyFromSlice] at h5
        split at h5
        · rename_i e'
          rw [sliceFrom] at h4
          split at h4
          · cases h4
            simp at e'
            simp at *
            omega
          · cases h4
        · cases h5

/-- **C60**, the flag for information elements: a frame with a payload that can be emitted cannot be
emitted any more if this flag is set, although `validate` still accepts it; unless the payload has less than
two octets, which cannot be taken as an element. -/
theorem C60_elements_flag (f : FrameRepr) (p : Bytes) (hp : f.payload = some p)
    (hb : f.frameControl.iePresent = false) (hs : f.frameControl.securityEnabled = false)
    (hw : Writable f.frameControl) (n : Nat) (hn : f.bufferLen = .ok n) (d : Bytes)
    (hd : f.emit (List.replicate n 0) = .ok d) :
    let g := { f with frameControl := { f.frameControl with iePresent := true } }
    g.validate = f.validate ∧ g.bufferLen = .ok n ∧
      (g.emit (List.replicate n 0) = .panic ↔ 2 ≤ p.length) ∧
      ((∃ d, g.emit (List.replicate n 0) = .ok d) ↔ p.length ≤ 1) := by
  intro g
  have hw' : Writable g.frameControl := hw
  obtain ⟨n', hn', h⟩ := C60_elements_panics_iff f (.inr ⟨hb, hs⟩) hw
  rw [hn] at hn'
  cases hn'
  rcases h with ⟨⟨he1, he2, he⟩, -⟩ | ⟨-, h⟩
  swap
  · rw [hd] at h; cases h
  have hg : g.bufferLen = .ok n := hn
  refine ⟨rfl, hg, ?_⟩
  obtain ⟨hl, o0, o1, ho, h⟩ := emit_until_payload g hw'
  rw [hg] at hl
  cases hl
  have he := he (by rw [hp]; rfl)
  rw [hp] at he
  rcases h with ⟨-, l, k, e⟩ | ⟨c, -⟩
  · have hpl : g.payload = some p := hp
    have := setPayload_elements o0 o1 l p (by rw [ho]; exact hw.2.1) (by rw [ho]; exact hw.2.2)
      (by rw [ho]; exact hs) (by rw [ho]) (by
        rw [ho, k]
        exact ⟨Nat.le_trans (Nat.le_add_right _ _) (Nat.le_trans (Nat.le_add_right _ _) (Nat.le_of_eq he)), he⟩)
    rw [e, hpl]
    simp only [FrameRepr.ifSome]
    rcases this with ⟨h1, h2⟩ | ⟨h1, d', h2⟩
    · rw [h2]
      exact ⟨iff_of_true rfl h1, iff_of_false (fun ⟨_, h⟩ => by cases h) (by omega)⟩
    · rw [h2]
      exact ⟨iff_of_false (fun h => by cases h) (by omega), iff_of_true ⟨_, rfl⟩ h1⟩
  · exact absurd ⟨he1, he2⟩ c

/-- A data frame with a payload of two octets, or of one. -/
def flagFrame (p : Bytes) : FrameRepr := { exampleFrame with payload := some p }

/-- Non-vacuity: the frames can be emitted; with the security flag neither can, with the other flag only
the shorter one. -/
example : ∃ d d' n n', (flagFrame [1, 2]).bufferLen = .ok n ∧ (flagFrame [1]).bufferLen = .ok n' ∧
    Writable (flagFrame [1]).frameControl ∧ (flagFrame [1, 2]).validate = .ok () ∧
    (flagFrame [1]).frameControl.iePresent = false ∧
    (flagFrame [1]).frameControl.securityEnabled = false ∧
    (flagFrame [1, 2]).emit (List.replicate n 0) = .ok d ∧
    (flagFrame [1]).emit (List.replicate n' 0) = .ok d' :=
  ⟨_, _, _, _, rfl, rfl, by decide, rfl, rfl, rfl, rfl, rfl⟩

end Dot15d4.Props
