import Verif.Props.SecurityHeader
import Verif.Lemmas.NoErr

/-! # C99: reading a beacon from arbitrary octets

`Beacon::new` is not implemented, so a beacon can only be read with `Beacon::new_unchecked`: nothing is
checked before the accessors run. -/

namespace Dot15d4.Props
open Out Spec

/-- **C99**: on any octets, the accessors of a beacon return. -/
def C99_statement : Prop := ∀ b : Bytes, Returns (Beacon.payload b)

/-- How many octets of addressing fields the frame control field announces (none of the PAN ids if the
combination of modes is not one of the standard's). -/
def announcedLen (o0 o1 : Byte) : Nat := fcAddrLen o0 o1 ((fcPans o0 o1).getD ⟨false, false⟩)

/-- A beacon is there: after the frame control field and the sequence number, all the addressing fields
the frame control field announces; the security header if it announces one; the superframe
specification; the GTS specification and three octets for each descriptor it announces; the pending
address specification and the addresses it announces. -/
structure BeaconParts.Whole (x : BeaconParts) : Prop where
  dst : (decodeFc x.o0 x.o1).dstMode ≠ .unknown
  src : (decodeFc x.o0 x.o1).srcMode ≠ .unknown
  addr : x.A.length = announcedLen x.o0 x.o1
  sec : if (decodeFc x.o0 x.o1).securityEnabled then ∃ c t, x.H = c :: t ∧ t.length = micOctets c
    else x.H = []
  gts : x.G.length = 3 * (x.g.toNat % 8)
  pending : x.P.length = 2 * (x.q.toNat % 8) + 8 * (x.q.toNat / 16 % 8)

theorem fc_flags (b : Bytes) (o0 o1 : Byte) (l : Bytes)
    (hd : (decodeFc o0 o1).dstMode ≠ .unknown) (hs : (decodeFc o0 o1).srcMode ≠ .unknown) :
    AddressingFields.flags ⟨b, o0 :: o1 :: l⟩ = .ok ((fcPans o0 o1).map (fun p =>
      ⟨p.dst, (decodeFc o0 o1).dstMode, p.src, (decodeFc o0 o1).srcMode⟩)) := by
  rw [flags_cons]
  have h := wRepr_eq_spec o0 o1
  have e1 := congrArg FrameControlRepr.frameVersion h
  have e2 := congrArg FrameControlRepr.dstMode h
  have e3 := congrArg FrameControlRepr.srcMode h
  have e4 := congrArg FrameControlRepr.panIdCompression h
  simp only [wRepr] at e1 e2 e3 e4
  rw [e1, e2, e3, e4, C04_pan_presence _ _ _ _ hd hs, fcPans]

/-- If the length of the addressing fields is returned at all, it is the announced one. -/
theorem len_announced {b : Bytes} {o0 o1 : Byte} {l : Bytes} {n : Nat}
    (h : AddressingFields.len ⟨b, o0 :: o1 :: l⟩ = .ok n) :
    (decodeFc o0 o1).dstMode ≠ .unknown ∧ (decodeFc o0 o1).srcMode ≠ .unknown ∧ n = announcedLen o0 o1 := by
  simp only [AddressingFields.len, fc_dst, fc_src, bind_ok] at h
  obtain ⟨dp, h1, h⟩ := Out.bind_eq_ok.1 h
  obtain ⟨dl, h2, h⟩ := Out.bind_eq_ok.1 h
  obtain ⟨sp, h3, h⟩ := Out.bind_eq_ok.1 h
  obtain ⟨sl, h4, h⟩ := Out.bind_eq_ok.1 h
  have hd : (decodeFc o0 o1).dstMode ≠ .unknown := fun e => by rw [e] at h2; cases h2
  have hs : (decodeFc o0 o1).srcMode ≠ .unknown := fun e => by rw [e] at h4; cases h4
  rw [modeLen_eq hd] at h2
  rw [modeLen_eq hs] at h4
  simp only [ok.injEq] at h h2 h4
  refine ⟨hd, hs, ?_⟩
  have hf := fc_flags b o0 o1 l hd hs
  simp only [AddressingFields.dstPanId, hf, bind_ok] at h1
  simp only [AddressingFields.srcPanId, hf, bind_ok] at h3
  simp only [announcedLen, fcAddrLen]
  subst h h2 h4
  cases hp : fcPans o0 o1 with
  | none =>
    rw [hp] at h1 h3
    simp only [Option.map_none, ok.injEq] at h1 h3
    subst h1 h3
    rfl
  | some p =>
    obtain ⟨pd, ps⟩ := p
    rw [hp] at h1 h3
    simp only [Option.map_some] at h1 h3
    have e1 : dp.isSome = pd := by
      cases pd
      · simp only [ok.injEq] at h1; subst h1; rfl
      · obtain ⟨w, -, e⟩ := Out.bind_eq_ok.1 h1
        simp only [ok.injEq] at e; subst e; rfl
    have e2 : sp.isSome = ps := by
      cases ps
      · simp only [ok.injEq] at h3; subst h3; rfl
      · obtain ⟨w, -, e⟩ := Out.bind_eq_ok.1 h3
        obtain ⟨w', -, e⟩ := Out.bind_eq_ok.1 e
        simp only [ok.injEq] at e; subst e; rfl
    rw [e1, e2]
    rfl

/-- It is returned if the octets are there. -/
theorem len_returned {b : Bytes} {o0 o1 : Byte} {l : Bytes}
    (hd : (decodeFc o0 o1).dstMode ≠ .unknown) (hs : (decodeFc o0 o1).srcMode ≠ .unknown)
    (hb : announcedLen o0 o1 ≤ b.length) :
    AddressingFields.len ⟨b, o0 :: o1 :: l⟩ = .ok (announcedLen o0 o1) := by
  have hf := fc_flags b o0 o1 l hd hs
  simp only [announcedLen, fcAddrLen] at hb ⊢
  simp only [AddressingFields.len, AddressingFields.dstPanId, AddressingFields.srcPanId, hf, fc_dst,
    fc_src, bind_ok, modeLen_eq hd, modeLen_eq hs]
  have read : ∀ x : Bytes, 2 ≤ x.length → ∃ w, readU16 x = .ok w := by
    intro x hx
    obtain _ | ⟨a, _ | ⟨c, x⟩⟩ := x
    · simp at hx
    · simp at hx
    · exact ⟨_, readU16_cons a c x⟩
  cases hp : fcPans o0 o1 with
  | none => simp
  | some p =>
    obtain ⟨pd, ps⟩ := p
    rw [hp] at hb
    simp only [Option.getD_some] at hb
    simp only [Option.map_some, Option.getD_some]
    have r1 : pd = true → ∃ w, readU16 b = .ok w := fun e => read _ (by subst e; simp at hb; omega)
    have r2 : ps = true → ∃ w, readU16 (b.drop ((if pd = true then 2 else 0) +
        (decodeFc o0 o1).dstMode.size)) = .ok w := fun e => read _ (by
      subst e; simp only [if_true] at hb; rw [List.length_drop]; omega)
    cases pd <;> cases ps
    · simp
    · obtain ⟨w, hw⟩ := r2 rfl
      dsimp only
      rw [sliceFrom_ok (by simp at hb ⊢; omega)]
      simp only [bind_ok, hw]
      simp
    · obtain ⟨w, hw⟩ := r1 rfl
      simp only [bind_ok, hw]
      simp
    · obtain ⟨w, hw⟩ := r1 rfl
      obtain ⟨w', hw'⟩ := r2 rfl
      dsimp only
      rw [sliceFrom_ok (by simp at hb ⊢; omega)]
      simp only [if_true] at hw'
      simp only [bind_ok, hw, if_true, hw']
      simp

/-- Where the header of a beacon ends, if that is returned at all. -/
theorem headerEnd_announced {b : Bytes} {e : Nat} (h : Beacon.headerEnd b = .ok e) :
    ∃ o0 o1 seq Z, b = o0 :: o1 :: seq :: Z ∧
      (decodeFc o0 o1).dstMode ≠ .unknown ∧ (decodeFc o0 o1).srcMode ≠ .unknown ∧
      if (decodeFc o0 o1).securityEnabled then
        ∃ c T, Z.drop (announcedLen o0 o1) = c :: T ∧ e = 3 + announcedLen o0 o1 + (1 + micOctets c)
      else e = 3 + announcedLen o0 o1 := by
  simp only [Beacon.headerEnd] at h
  obtain ⟨af, ha, h⟩ := Out.bind_eq_ok.1 h
  obtain ⟨n, hn, h⟩ := Out.bind_eq_ok.1 h
  have ha' := ha
  simp only [Beacon.addressing] at ha
  obtain ⟨s, hs, ha⟩ := Out.bind_eq_ok.1 ha
  obtain _ | ⟨o0, _ | ⟨o1, _ | ⟨seq, Z⟩⟩⟩ := b
  · simp [sliceFrom] at hs
  · simp [sliceFrom] at hs
  · simp [sliceFrom] at hs
  have hfc : Beacon.frameControl (o0 :: o1 :: seq :: Z) = .ok [o0, o1] := by
    simp [Beacon.frameControl, sliceTo]
  have hz : s = Z := by simpa [sliceFrom] using hs.symm
  subst hz
  rw [hfc, bind_ok] at ha h
  simp only [ok.injEq] at ha
  subst ha
  obtain ⟨hd, hs, rfl⟩ := len_announced hn
  refine ⟨o0, o1, seq, s, rfl, hd, hs, ?_⟩
  rw [fc_security, bind_ok] at h
  cases he : (decodeFc o0 o1).securityEnabled with
  | false =>
    rw [he] at h
    simpa using h.symm
  | true =>
    rw [he] at h
    simp only [if_true, Beacon.auxSecHeader, hfc, bind_ok, fc_security, he, ha', hn] at h
    by_cases hl : 3 + announcedLen o0 o1 ≤ (o0 :: o1 :: seq :: s).length
    · rw [sliceFrom_ok hl, bind_ok, bind_ok] at h
      simp only [ofSome, bind_ok] at h
      have e1 : (o0 :: o1 :: seq :: s).drop (3 + announcedLen o0 o1) = s.drop (announcedLen o0 o1) := by
        rw [Nat.add_comm]; rfl
      rw [e1] at h
      cases hc : s.drop (announcedLen o0 o1) with
      | nil => rw [hc] at h; simp [AuxSecHeader.len, AuxSecHeader.securityControl] at h
      | cons c T =>
        rw [hc, auxLen_eq, bind_ok] at h
        simp only [ok.injEq] at h
        exact ⟨c, T, rfl, h.symm⟩
    · rw [sliceFrom, if_neg hl] at h
      cases h

/-- The header of a whole beacon ends where it should. -/
theorem whole_headerEnd {x : BeaconParts} (h : x.Whole) :
    Beacon.headerEnd x.bytes = .ok (3 + x.A.length + x.H.length) := by
  obtain ⟨o0, o1, seq, s0, s1, g, q, A, H, G, P, pl⟩ := x
  obtain ⟨hd, hs, hA, hsec, -, -⟩ := h
  simp only at hd hs hA hsec
  simp only [BeaconParts.bytes]
  generalize hX : [s0, s1] ++ (([g] ++ G) ++ (([q] ++ P) ++ pl)) = X
  have hb : [o0, o1, seq] ++ A ++ H ++ [s0, s1] ++ ([g] ++ G) ++ ([q] ++ P) ++ pl =
      o0 :: o1 :: seq :: (A ++ (H ++ X)) := by
    rw [← hX]; simp
  rw [hb]
  have hfc : Beacon.frameControl (o0 :: o1 :: seq :: (A ++ (H ++ X))) = .ok [o0, o1] := by
    simp [Beacon.frameControl, sliceTo]
  have haddr : Beacon.addressing (o0 :: o1 :: seq :: (A ++ (H ++ X))) = .ok ⟨A ++ (H ++ X), [o0, o1]⟩ := by
    simp only [Beacon.addressing, hfc]; simp [sliceFrom]
  have hlen : AddressingFields.len ⟨A ++ (H ++ X), [o0, o1]⟩ = .ok A.length := by
    rw [len_returned hd hs (by rw [List.length_append]; omega), hA]
  simp only [Beacon.headerEnd, haddr, bind_ok, hlen, hfc, fc_security]
  cases he : (decodeFc o0 o1).securityEnabled with
  | false =>
    rw [he] at hsec; simp only [Bool.false_eq_true, if_false] at hsec
    simp [hsec]
  | true =>
    rw [he] at hsec; simp only [if_true] at hsec
    obtain ⟨c, t, rfl, ht⟩ := hsec
    have hdrop := beacon_slice (o0 := o0) (o1 := o1) (seq := seq) (A := A) (X := c :: t ++ X) 0
    rw [Nat.add_zero] at hdrop
    have hx : Beacon.auxSecHeader (o0 :: o1 :: seq :: (A ++ (c :: t ++ X))) = .ok (some (c :: t ++ X)) := by
      simp only [Beacon.auxSecHeader, hfc, bind_ok, fc_security, he, if_true, haddr, hlen, hdrop]
      simp [sliceFrom]
    simp only [if_true, hx, bind_ok, ofSome]
    rw [List.cons_append, auxLen_eq, bind_ok, List.length_cons, ht]
    congr 1; omega

/-- What the accessors return for a whole beacon. -/
theorem C99_whole (x : BeaconParts) (h : x.Whole) :
    Beacon.superframeSpecification x.bytes = .ok [x.s0, x.s1] ∧
    Beacon.gtsInfo x.bytes = .ok (([x.g] ++ x.G) ++ (([x.q] ++ x.P) ++ x.payload)) ∧
    Beacon.pendingAddress x.bytes = .ok (([x.q] ++ x.P) ++ x.payload) ∧
    Beacon.payload x.bytes = .ok (some x.payload) := by
  have hend := whole_headerEnd h
  have hG := h.gts
  have hP := h.pending
  obtain ⟨o0, o1, seq, s0, s1, g, q, A, H, G, P, pl⟩ := x
  simp only [BeaconParts.bytes] at hend hG hP ⊢
  generalize hY : ([q] ++ P) ++ pl = Y
  generalize hX : [s0, s1] ++ (([g] ++ G) ++ Y) = X
  have hb : [o0, o1, seq] ++ A ++ H ++ [s0, s1] ++ ([g] ++ G) ++ ([q] ++ P) ++ pl =
      o0 :: o1 :: seq :: ((A ++ H) ++ X) := by
    rw [← hX, ← hY]; simp
  rw [hb] at hend ⊢
  have hdropX : ∀ n, n ≤ X.length → sliceFrom (o0 :: o1 :: seq :: ((A ++ H) ++ X))
      (3 + A.length + H.length + n) = .ok (X.drop n) := by
    intro n hn
    have := beacon_slice (o0 := o0) (o1 := o1) (seq := seq) (A := A ++ H) (X := X) n
    rw [List.length_append, ← Nat.add_assoc] at this
    rw [this, sliceFrom_ok hn]
  have hXl : X.length = 2 + (1 + G.length + Y.length) := by rw [← hX]; simp; omega
  have hYl : Y.length = 1 + P.length + pl.length := by rw [← hY]; simp; omega
  generalize o0 :: o1 :: seq :: ((A ++ H) ++ X) = b at *
  have hg : Beacon.gtsInfo b = .ok (([g] ++ G) ++ Y) := by
    simp only [Beacon.gtsInfo, hend, bind_ok]
    rw [hdropX 2 (by omega), ← hX]; rfl
  have hgl : GtsInfo.length (([g] ++ G) ++ Y) = .ok ([g] ++ G).length := by
    simp only [List.cons_append, List.nil_append, gtsLength_cons, List.length_cons, hG]
    congr 1; omega
  have hpa : Beacon.pendingAddress b = .ok Y := by
    simp only [Beacon.pendingAddress, hend, hg, hgl, bind_ok]
    rw [Nat.add_assoc _ 2, hdropX _ (by simp; omega), ← hX, ← List.append_assoc, List.drop_left' (by simp; omega)]
  have hpl : PendingAddress.length Y = .ok ([q] ++ P).length := by
    rw [← hY]
    simp only [List.cons_append, List.nil_append, pendingLength_cons, List.length_cons, hP]
    congr 1; omega
  refine ⟨?_, hg, hpa, ?_⟩
  · simp only [Beacon.superframeSpecification, hend, bind_ok]
    have := hdropX 0 (by omega)
    rw [Nat.add_zero, List.drop_zero] at this
    rw [this, bind_ok, ← hX]
    simp [sliceTo]
  · simp only [Beacon.payload, hend, hg, hgl, hpa, hpl, bind_ok]
    rw [Nat.add_assoc _ _ ([q] ++ P).length, Nat.add_assoc _ 2, hdropX _ (by simp; omega), bind_ok, ← hX, ← hY]
    have : [s0, s1] ++ ([g] ++ G ++ ([q] ++ P ++ pl)) = ([s0, s1] ++ ([g] ++ G) ++ ([q] ++ P)) ++ pl := by simp
    rw [this, List.drop_left' (by simp; omega)]

theorem cut {n : Nat} {l : Bytes} (h : n ≤ l.length) : ∃ a c, l = a ++ c ∧ a.length = n :=
  ⟨l.take n, l.drop n, (List.take_append_drop n l).symm, by simp [h]⟩

/-- A slice that is taken is there. -/
theorem sliceFrom_inv {b c : Bytes} {n : Nat} (h : sliceFrom b n = .ok c) : n ≤ b.length ∧ c = b.drop n := by
  simp only [sliceFrom] at h
  split at h
  · rename_i hn
    simp only [ok.injEq] at h
    exact ⟨hn, h.symm⟩
  · cases h

/-- **C99**, exactly: the payload of a beacon is returned for the octets of a whole beacon and for no
others; on all others reading it panics. -/
theorem C99_exact_partial (b : Bytes) (p : Option Bytes) :
    Beacon.payload b = .ok p ↔ ∃ x : BeaconParts, x.Whole ∧ x.bytes = b ∧ p = some x.payload := by
  constructor
  · intro h
    have h0 := h
    simp only [Beacon.payload] at h
    obtain ⟨e, he, h⟩ := Out.bind_eq_ok.1 h
    obtain ⟨g, hg, h⟩ := Out.bind_eq_ok.1 h
    obtain ⟨n, hn, h⟩ := Out.bind_eq_ok.1 h
    obtain ⟨q, hq, h⟩ := Out.bind_eq_ok.1 h
    obtain ⟨m, hm, h⟩ := Out.bind_eq_ok.1 h
    obtain ⟨s, hs, -⟩ := Out.bind_eq_ok.1 h
    simp only [Beacon.gtsInfo, he, bind_ok] at hg
    have hg' : Beacon.gtsInfo b = .ok g := by simp only [Beacon.gtsInfo, he, bind_ok, hg]
    simp only [Beacon.pendingAddress, he, bind_ok, hg', hn] at hq
    obtain ⟨l1, e1⟩ := sliceFrom_inv hg
    obtain ⟨l2, e2⟩ := sliceFrom_inv hq
    obtain ⟨l3, -⟩ := sliceFrom_inv hs
    obtain ⟨o0, o1, seq, Z, rfl, hd, hsr, hend⟩ := headerEnd_announced he
    cases g with
    | nil => rw [show GtsInfo.length [] = .panic from rfl] at hn; cases hn
    | cons g0 g =>
    cases q with
    | nil => rw [show PendingAddress.length [] = .panic from rfl] at hm; cases hm
    | cons q0 q =>
    rw [gtsLength_cons] at hn
    rw [pendingLength_cons] at hm
    simp only [ok.injEq] at hn hm
    obtain ⟨k, rfl, hk⟩ : ∃ k, e = 3 + announcedLen o0 o1 + k ∧
        if (decodeFc o0 o1).securityEnabled then
          ∃ c T, Z.drop (announcedLen o0 o1) = c :: T ∧ k = 1 + micOctets c
        else k = 0 := by
      split at hend
      · rename_i hse
        obtain ⟨c, T, h1, h2⟩ := hend
        exact ⟨_, h2, by rw [if_pos hse]; exact ⟨c, T, h1, rfl⟩⟩
      · rename_i hse
        exact ⟨0, hend, by rw [if_neg hse]⟩
    simp only [List.length_cons] at l1 l2 l3
    obtain ⟨A, R, rfl, hA⟩ := cut (n := announcedLen o0 o1) (l := Z) (by omega)
    rw [List.drop_left' hA] at hk
    rw [List.length_append] at l1 l2 l3
    obtain ⟨H, R, rfl, hH⟩ := cut (n := k) (l := R) (by omega)
    rw [List.length_append] at l1 l2 l3
    have hdrop : ∀ i, (o0 :: o1 :: seq :: (A ++ (H ++ R))).drop (3 + announcedLen o0 o1 + k + i) = R.drop i := by
      intro i
      have : o0 :: o1 :: seq :: (A ++ (H ++ R)) = (o0 :: o1 :: seq :: (A ++ H)) ++ R := by simp
      rw [this, ← List.drop_drop, List.drop_left' (by simp; omega)]
    rw [hdrop] at e1
    rw [Nat.add_assoc _ 2, hdrop] at e2
    obtain _ | ⟨s0, _ | ⟨s1, R⟩⟩ := R
    · simp at l1; omega
    · simp at l1; omega
    simp only [List.drop_succ_cons, List.drop_zero] at e1
    subst e1
    simp only [List.length_cons] at l1 l2 l3
    have e3 : q0 :: q = g.drop (3 * (g0.toNat % 8)) := by
      rw [e2, ← hn, show 2 + (1 + g0.toNat % 8 * 3) = 3 * (g0.toNat % 8) + 1 + 1 + 1 by omega]
      rfl
    obtain ⟨G, Q, rfl, hG⟩ := cut (n := 3 * (g0.toNat % 8)) (l := g) (by omega)
    rw [List.drop_left' hG] at e3
    subst e3
    rw [List.length_append, List.length_cons] at l3
    obtain ⟨P, pl, rfl, hP⟩ := cut (n := 2 * (q0.toNat % 8) + 8 * (q0.toNat / 16 % 8)) (l := q) (by omega)
    have hx : (BeaconParts.mk o0 o1 seq s0 s1 g0 q0 A H G P pl).Whole := by
      refine ⟨hd, hsr, hA, ?_, hG, hP⟩
      split at hk
      · rename_i hse
        simp only
        rw [if_pos hse]
        obtain ⟨c, T, h1, h2⟩ := hk
        obtain _ | ⟨c', t⟩ := H
        · simp at hH; omega
        · simp only [List.cons_append, List.cons.injEq] at h1
          refine ⟨c', t, rfl, ?_⟩
          rw [h1.1]
          simp only [List.length_cons] at hH
          omega
      · rename_i hse
        simp only
        rw [if_neg hse]
        exact List.length_eq_zero_iff.1 (by omega)
    have hb : (BeaconParts.mk o0 o1 seq s0 s1 g0 q0 A H G P pl).bytes =
        o0 :: o1 :: seq :: (A ++ (H ++ s0 :: s1 :: g0 :: (G ++ q0 :: (P ++ pl)))) := by
      simp [BeaconParts.bytes]
    refine ⟨_, hx, hb, ?_⟩
    have := (C99_whole _ hx).2.2.2
    rw [hb, h0] at this
    simpa using this
  · rintro ⟨x, hx, rfl, rfl⟩
    exact (C99_whole x hx).2.2.2

/-- A beacon with one GTS descriptor, two pending addresses and a payload octet. -/
def wholeBeacon : BeaconParts := BeaconParts.mk 0x00 0x80 0x17 0xcf 0x80 0x81 0x11
  [0xcd, 0xab, 0x34, 0x12] [] [1, 2, 0x35] [0xaa, 0xbb, 1, 2, 3, 4, 5, 6, 7, 8] [0x99]

theorem wholeBeacon_whole : wholeBeacon.Whole :=
  ⟨by decide, by decide, by decide, rfl, by decide, by decide⟩

example : Beacon.payload wholeBeacon.bytes = .ok (some [0x99]) :=
  (C99_exact_partial _ _).2 ⟨_, wholeBeacon_whole, rfl, rfl⟩

/-- A secured one with the reserved security level 4: one octet of security header is skipped. -/
example : (BeaconParts.mk 0x08 0x80 0x17 0xcf 0x80 0 0 [0xcd, 0xab, 0x34, 0x12] [4] [] [] []).Whole :=
  ⟨by decide, by decide, by decide, ⟨4, [], rfl, by decide⟩, by decide, by decide⟩

/-- No accessor reports an error: what does not return panics. -/
theorem payload_noErr (b : Bytes) : NoErr (Beacon.payload b) := by
  have fc : NoErr (Beacon.frameControl b) := NoErr.sliceTo ..
  have ad : NoErr (Beacon.addressing b) := (NoErr.sliceFrom ..).bind fun _ _ => fc.bind fun _ _ => NoErr.ok _
  have se : ∀ l, NoErr (FrameControl.securityEnabled l) := fun l => NoErr.field ..
  have au : NoErr (Beacon.auxSecHeader b) := fc.bind fun _ _ => (se _).bind fun e _ => by
    cases e
    · exact NoErr.ok _
    · exact ad.bind fun _ _ => (NoErr.afLen _).bind fun _ _ => (NoErr.sliceFrom ..).bind fun _ _ => NoErr.ok _
  have he : NoErr (Beacon.headerEnd b) := ad.bind fun _ _ => (NoErr.afLen _).bind fun _ _ =>
    fc.bind fun _ _ => (se _).bind fun e _ => by
      cases e
      · exact NoErr.ok _
      · refine au.bind fun h _ => ?_
        refine NoErr.bind (by cases h <;> exact ⟨by simp [ofSome]⟩) fun _ _ => ?_
        exact NoErr.bind ((NoErr.idx ..).bind fun _ _ => NoErr.ok _) fun _ _ => NoErr.ok _
  have gl : ∀ g, NoErr (GtsInfo.length g) := fun g => by
    cases g with
    | nil => exact NoErr.panic
    | cons a l => rw [gtsLength_cons]; exact NoErr.ok _
  have pl : ∀ g, NoErr (PendingAddress.length g) := fun g => by
    cases g with
    | nil => exact NoErr.panic
    | cons a l => rw [pendingLength_cons]; exact NoErr.ok _
  have gi : NoErr (Beacon.gtsInfo b) := he.bind fun _ _ => NoErr.sliceFrom ..
  exact he.bind fun _ _ => gi.bind fun _ _ => (gl _).bind fun _ _ =>
    NoErr.bind (he.bind fun _ _ => gi.bind fun _ _ => (gl _).bind fun _ _ => NoErr.sliceFrom ..) fun _ _ =>
      (pl _).bind fun _ _ => (NoErr.sliceFrom ..).bind fun _ _ => NoErr.ok _

/-- Octets behind a beacon extend its payload and change nothing else. -/
theorem C99_appended (b t : Bytes) (p : Bytes) (h : Beacon.payload b = .ok (some p)) :
    Beacon.payload (b ++ t) = .ok (some (p ++ t)) ∧
    Beacon.superframeSpecification (b ++ t) = Beacon.superframeSpecification b := by
  obtain ⟨x, hx, rfl, hp⟩ := (C99_exact_partial _ _).1 h
  simp only [Option.some.injEq] at hp
  subst hp
  let y : BeaconParts := { x with payload := x.payload ++ t }
  have hy : y.Whole := ⟨hx.dst, hx.src, hx.addr, hx.sec, hx.gts, hx.pending⟩
  have hb : x.bytes ++ t = y.bytes := by simp [y, BeaconParts.bytes]
  rw [hb]
  exact ⟨(C99_whole y hy).2.2.2, by rw [(C99_whole y hy).1, (C99_whole x hx).1]⟩

example : Beacon.payload (wholeBeacon.bytes ++ [7]) = .ok (some [0x99, 7]) :=
  (C99_appended _ [7] _ (C99_whole _ wholeBeacon_whole).2.2.2).1

/-- A beacon cut anywhere before its payload makes reading the payload panic; cut within the payload, the
payload is cut. -/
theorem C99_cut (x : BeaconParts) (h : x.Whole) (n : Nat) (hn : n ≤ x.bytes.length) :
    Beacon.payload (x.bytes.take n) =
      if x.bytes.length - x.payload.length ≤ n then
        .ok (some (x.payload.take (n - (x.bytes.length - x.payload.length))))
      else .panic := by
  have hl : x.payload.length ≤ x.bytes.length := by simp [BeaconParts.bytes]; omega
  split
  · rename_i hc
    let y : BeaconParts := { x with payload := [] }
    have hy : y.Whole := ⟨h.dst, h.src, h.addr, h.sec, h.gts, h.pending⟩
    have hb : x.bytes = y.bytes ++ x.payload := by simp [y, BeaconParts.bytes]
    have hyl : y.bytes.length = x.bytes.length - x.payload.length := by rw [hb, List.length_append]; omega
    have := (C99_appended y.bytes (x.payload.take (n - y.bytes.length)) [] (C99_whole y hy).2.2.2).1
    rw [List.nil_append] at this
    rw [← hyl, ← this, hb, List.take_append, List.take_of_length_le (by omega)]
  · rename_i hc
    cases hp : Beacon.payload (x.bytes.take n) with
    | panic => rfl
    | err => exact absurd hp (payload_noErr _).ne
    | ok p =>
      exfalso
      obtain ⟨z, hz, hb, rfl⟩ := (C99_exact_partial _ _).1 hp
      have := (C99_appended _ (x.bytes.drop n) _ hp).1
      rw [List.take_append_drop, (C99_whole x h).2.2.2] at this
      simp only [ok.injEq, Option.some.injEq] at this
      have := congrArg List.length this
      rw [List.length_append, List.length_drop] at this
      omega

example : Beacon.payload (wholeBeacon.bytes.take 20) = .panic :=
  C99_cut _ wholeBeacon_whole 20 (by decide)

example : Beacon.payload (wholeBeacon.bytes.take 23) = .panic :=
  C99_cut _ wholeBeacon_whole 23 (by decide)

/-- Everything the payload accessor does not return on makes it panic. -/
theorem C99_panics (b : Bytes) (h : ∀ x : BeaconParts, x.Whole → x.bytes ≠ b) : Beacon.payload b = .panic := by
  cases hp : Beacon.payload b with
  | panic => rfl
  | err => exact absurd hp (payload_noErr _).ne
  | ok p =>
    obtain ⟨x, hx, hb, -⟩ := (C99_exact_partial _ _).1 hp
    exact absurd hb (h x hx)

example : Beacon.payload [0, 0x80, 1] = .panic := C99_panics _ fun x _ h => by
  have := congrArg List.length h
  simp [BeaconParts.bytes] at this

theorem C99_false : ¬ C99_statement := fun h => h [] rfl

end Dot15d4.Props
