import Verif.Props.CsmaTransmit

/-!
# C48: transmitting a package, from the upper layer's call to the last report
-/

namespace Dot15d4.Props
open Dot15d4 Out Spec Csma
open Dot15d4.Sync (Either)

/-! ## Preparing the package -/

theorem putData_putData (F : RadioFormat) (b : Bytes) (n : Nat) (d1 d2 : Bytes)
    (hn : F.dataOff + n ≤ b.length) (h1 : d1.length = n) :
    F.putData (F.putData b n d1) n d2 = F.putData b n d2 := by
  have e1 : (b.take F.dataOff).length = F.dataOff := by rw [List.length_take]; omega
  simp only [RadioFormat.putData]
  have e2 : (b.take F.dataOff ++ d1 ++ b.drop (F.dataOff + n)).take F.dataOff =
      b.take F.dataOff := by
    rw [List.append_assoc, List.take_append, e1, List.take_of_length_le (by omega)]
    simp
  have e3 : (b.take F.dataOff ++ d1 ++ b.drop (F.dataOff + n)).drop (F.dataOff + n) =
      b.drop (F.dataOff + n) := by
    rw [List.drop_append, List.drop_of_length_le (by simp; omega)]
    simp [e1, h1]
  rw [e2, e3]

theorem data_putData (F : RadioFormat) (b : Bytes) (n : Nat) (d : Bytes)
    (hn : F.dataOff + n ≤ b.length) (h1 : d.length = n) : F.data (F.putData b n d) n = d := by
  have e1 : (b.take F.dataOff).length = F.dataOff := by rw [List.length_take]; omega
  rw [RadioFormat.data, RadioFormat.putData, List.append_assoc, List.drop_append, e1,
    List.drop_of_length_le (by omega)]
  simp [h1]

theorem putData_length (F : RadioFormat) (b : Bytes) (n : Nat) (d : Bytes)
    (hn : F.dataOff + n ≤ b.length) (h1 : d.length = n) : (F.putData b n d).length = b.length := by
  simp [RadioFormat.putData]
  omega

/-- The acknowledgement to wait for. -/
def awaited (r : Except TaskError (Option (Byte × Byte))) : Option (Byte × Byte) :=
  match r with
  | .ok seq => seq
  | .error _ => none

/-- What `reportTaskError` reports. -/
def complaint {α : Type} (r : Except TaskError α) : List TxEvent :=
  match r with
  | .ok _ => []
  | .error .invalidIeeeFrame => [.report .invalidIeeeStructure]
  | .error .invalidDeviceFrame => [.report .invalidDeviceStructure]

/-- The two functions together turn a package into what the specification says. -/
theorem prepare (D : Device) (hF : D.format.Lawful) (p : Arr 128) :
    ∃ (r1 : Except TaskError (Option (Byte × Byte))) (b1 : Bytes) (r2 : Except TaskError Unit)
      (b : Arr 128), setAckRequestIfPossible D p.1 = .ok (r1, b1) ∧
      overwritePanId D b1 = .ok (r2, b.1) ∧
      Prepared D p b ((awaited r1).map (·.1)) (complaint r1 ++ complaint r2) := by
  cases hn : D.format.frameLen p.1 with
  | none =>
    obtain ⟨h1, h2⟩ := (C45_invalid D p.1).1 hn
    exact ⟨_, _, _, p, h1, h2, .noDeviceFrame hn rfl⟩
  | some n =>
    by_cases hacc : Acceptable (D.format.data p.1 n)
    · obtain ⟨h, hb, hw⟩ := exists_header hacc
      rw [hb] at hacc
      have hin := hF.frame_inside _ _ hn
      have hdl : (D.format.data p.1 n).length = n := by
        rw [RadioFormat.data, List.length_take, List.length_drop]; omega
      obtain ⟨o0, o1, want, e1, e2, e3, e4, e5, e6⟩ :=
        C45_ack_bit_partial D p.1 n h hn hb hw hacc
      have hl : ({ h with o0 := o0, o1 := o1 } : Header).bytes.length = n := by
        rw [← hdl, hb]; rfl
      have hn' : D.format.frameLen (D.format.putData p.1 n
          ({ h with o0 := o0, o1 := o1 } : Header).bytes) = some n :=
        hF.frame_stable _ _ _ hn hl
      obtain ⟨e7, -, e8⟩ := C50_overwrite D _ n { h with o0 := o0, o1 := o1 } hn'
        (data_putData _ _ _ _ hin hl) e5 e6
      rw [putData_putData _ _ _ _ _ hin hl] at e7
      have hlen : (D.format.putData p.1 n
          (({ h with o0 := o0, o1 := o1 } : Header).overwrite D).bytes).length = 128 := by
        rw [putData_length _ _ _ _ hin (by rw [e8, hl]), p.2]
      refine ⟨_, _, _, ⟨_, hlen⟩, e2, e7, ?_⟩
      · have := Prepared.frame (D := D) (buffer := p) (b := ⟨_, hlen⟩) h n o0 o1 want hw hacc hn hb e1
          e3 e4 rfl
        simp only [awaited, complaint, List.append_nil]
        convert this using 1
        cases want with
        | false => rfl
        | true =>
          simp only [if_true]
          cases h.seq <;> rfl
    · obtain ⟨h1, h2⟩ := (C45_invalid D p.1).2 n hn hacc
      exact ⟨_, _, _, p, h1, h2, .noIeeeFrame n hn hacc rfl⟩

/-! ## Waiting for the acknowledgement -/

theorem waitForValidAck_traces (F : RadioFormat) (ch : PhyChannel) (seq : Byte) :
    TracesW txEvent (waitForValidAck F ch seq)
      (fun u o => match o with
        | none => ∃ rest done, Listening F ch seq (u ++ rest) done
        | some _ => Listening F ch seq u true)
      (fun u => Listening F ch seq u false) := by
  rw [TracesW, waitForValidAck]
  let I : Unit → List TxEvent → Prop := fun _ l =>
    ∀ m done, Listening F ch seq m done → Listening F ch seq (l ++ m) done
  refine TripleW.pre (P := I ()) ?_ (by rintro l rfl m done h; exact h)
  have hC : ∀ (s : Unit) l, I s l → ∃ rest done, Listening F ch seq (l ++ rest) done :=
    fun _ l h => ⟨_, _, h _ _ .still⟩
  refine TripleW.loop (I := I) hC (fun _ l h => ⟨[], true, by simpa using h⟩) ?_
  intro _
  refine Triple.bind (R := fun (r : Bool × Arr 128) l => ∃ l0, I () l0 ∧
    l = l0 ++ [.listen ⟨ch⟩] ++ [.heard r.1 r.2]) (TripleW.await ?_) ?_
  · intro l hl
    exact ⟨hC () l hl, ⟨[], false, by rw [List.append_nil]; exact hl _ _ .still⟩,
      hl _ _ .still, fun r => ⟨l, hl, rfl⟩⟩
  rintro ⟨r, b⟩
  have next : ∀ l0, I () l0 → ¬ (r = true ∧ ValidAck F seq b) →
      I () (l0 ++ [.listen ⟨ch⟩] ++ [.heard r b]) := by
    intro l0 h0 hno m done hm
    have := h0 _ _ (.more hno hm)
    simpa using this
  cases r with
  | false =>
    refine Triple.pure ?_
    rintro l ⟨l0, h0, rfl⟩
    exact ⟨next l0 h0 (by simp), hC () _ (next l0 h0 (by simp))⟩
  | true =>
    obtain ⟨v, hv, hiff⟩ := isValidAck_ok F seq b
    simp only [Bool.not_true, Bool.false_eq_true, if_false, hv]
    refine Triple.bind (R := fun x l => x = v ∧ ∃ l0, I () l0 ∧
      l = l0 ++ [.listen ⟨ch⟩] ++ [.heard true b]) (Triple.lift ?_) ?_
    · rintro l ⟨l0, h0, rfl⟩
      refine ⟨v, rfl, ⟨rfl, l0, h0, rfl⟩, ?_⟩
      cases v with
      | true =>
        refine ⟨[], true, ?_⟩
        have := h0 _ _ (.acked (hiff.1 rfl))
        simpa using this
      | false => exact hC () _ (next l0 h0 (by simpa using hiff))
    · intro x
      refine Triple.pure ?_
      rintro l ⟨rfl, l0, h0, rfl⟩
      cases x with
      | true =>
        have : Listening F ch seq (l0 ++ [.listen ⟨ch⟩] ++ [.heard true b]) true := by
          have := h0 _ _ (.acked (hiff.1 rfl))
          simpa using this
        exact ⟨this, [], true, by simpa using this⟩
      | false =>
        exact ⟨next l0 h0 (by simpa using hiff), hC () _ (next l0 h0 (by simpa using hiff))⟩

theorem delay_traces (us : BitVec 32) :
    TracesW txEvent (tx (.delay us))
      (fun u o => u <+: [.pause us] ∧ ∀ a, o = some a → u = [.pause us])
      (fun u => u = [.pause us]) := by
  rw [TracesW, tx]
  refine TripleW.await ?_
  rintro l rfl
  exact ⟨⟨⟨_, rfl⟩, by simp⟩, ⟨⟨[], rfl⟩, by simp⟩, rfl, fun r => ⟨⟨[], rfl⟩, fun _ _ => rfl⟩⟩

theorem await_ack_traces (D : Device) (seq : Byte) :
    Traces txEvent (.select (waitForValidAck D.format D.config.channel seq)
          (tx (.delay (ackTimeout D.consts))) (fun r => r.isFirst) : Csma.Task Bool)
      (fun u o => match o with
        | none => ∃ rest a, AckLog D.consts D.format D.config.channel seq (u ++ rest) a
        | some a => AckLog D.consts D.format D.config.channel seq u a) := by
  rw [Traces, ackTimeout_eq]
  refine Triple.select (waitForValidAck_traces _ _ _) (delay_traces _) ?_ ?_ ?_
  · rintro l u1 u2 u rfl ⟨r1, done, h1⟩ ⟨⟨r2, h2⟩, -⟩ hi
    have hi2 := interleave_prefix (r1 := r1) (r2 := r2) hi
    rw [h2] at hi2
    cases done with
    | true => exact ⟨r1 ++ r2, true, .acked h1 (Or.inr rfl) hi2⟩
    | false => exact ⟨r1 ++ r2, false, .timeout h1 hi2⟩
  · rintro l u1 u2 u b rfl h1 h2 hi
    exact .acked h1 h2 hi
  · rintro l u1 u2 u c rfl h1 ⟨-, h2⟩ hi
    rw [h2 c rfl] at hi
    exact .timeout h1 hi

/-! ## The rounds -/

/-- The log so far can be completed. -/
def SendCut (D : Device) (b : Arr 128) (seq : Option Byte) (l : List TxEvent) : Prop :=
  ∃ rest o, SendLog D b seq 1 (l ++ rest) o

/-- What is still to come completes the log. -/
def SendInv (D : Device) (b : Arr 128) (seq : Option Byte) (i : Nat) (l : List TxEvent) : Prop :=
  1 ≤ i ∧ i ≤ D.consts.maxFrameRetries ∧
  ∀ l' o, SendLog D b seq i l' o → SendLog D b seq 1 (l ++ l') o

/-- A successful `transmit_cca`, to complete logs with. -/
theorem ccaLog_exists (c : Consts) (hm : 1 ≤ c.maxCsmaBackoffs) (ch : PhyChannel) (b : Arr 128) :
    ∃ l, CcaLog c ch b 1 false l true := ⟨_, .sent hm⟩

theorem ackLog_exists (c : Consts) (F : RadioFormat) (ch : PhyChannel) (seq : Byte) :
    ∃ l, AckLog c F ch seq l false := ⟨_, .timeout .still (interleave_pair _ _)⟩

theorem sendLog_exists (D : Device) (hm : 1 ≤ D.consts.maxCsmaBackoffs) (b : Arr 128)
    (seq : Option Byte) (i : Nat) (hi : i ≤ D.consts.maxFrameRetries) :
    ∃ l o, SendLog D b seq i l o := by
  obtain ⟨l, hl⟩ := ccaLog_exists D.consts hm D.config.channel b
  cases seq with
  | none => exact ⟨_, _, .sent rfl hl⟩
  | some s =>
    obtain ⟨n, rfl⟩ : ∃ n, i = D.consts.maxFrameRetries - n := ⟨D.consts.maxFrameRetries - i, by omega⟩
    induction n with
    | zero =>
      obtain ⟨l', hl'⟩ := ackLog_exists D.consts D.format D.config.channel s
      exact ⟨_, _, .ackFailed rfl hl hl'⟩
    | succ n ih =>
      by_cases h : D.consts.maxFrameRetries - (n + 1) = D.consts.maxFrameRetries - n
      · rw [h]; exact ih (by omega)
      · obtain ⟨l', hl'⟩ := ackLog_exists D.consts D.format D.config.channel s
        obtain ⟨l'', o, ih⟩ := ih (by omega)
        refine ⟨_, o, .retry (l'' := l'') rfl hl hl' (by omega) ?_⟩
        rw [show D.consts.maxFrameRetries - (n + 1) + 1 = D.consts.maxFrameRetries - n by omega]
        exact ih

/-- After a `transmit_cca` that is under way or succeeded, there is a way to complete the log. -/
theorem SendInv.cca {D : Device} (hm : 1 ≤ D.consts.maxCsmaBackoffs) {b : Arr 128}
    {seq : Option Byte} {i : Nat} {l u : List TxEvent} (h : SendInv D b seq i l)
    (hu : CcaCut D.consts D.config.channel b false u) : SendCut D b seq (l ++ u) := by
  obtain ⟨rest, res, hu⟩ := hu
  obtain ⟨h1, h2, h3⟩ := h
  cases res with
  | false =>
    have := h3 _ _ (.ccaFailed hu)
    exact ⟨rest ++ [.report .ccaFailed], _, by simpa using this⟩
  | true =>
    cases seq with
    | none =>
      have := h3 _ _ (.sent rfl hu)
      exact ⟨rest ++ [.unlocked], _, by simpa using this⟩
    | some s =>
      obtain ⟨l', hl'⟩ := ackLog_exists D.consts D.format D.config.channel s
      by_cases hi : i = D.consts.maxFrameRetries
      · subst hi
        have := h3 _ _ (.ackFailed rfl hu hl')
        exact ⟨rest ++ (l' ++ [.unlocked, .pause (retryPause D.consts), .report .ackFailed]), _,
          by simpa using this⟩
      · obtain ⟨l'', o, hl''⟩ := sendLog_exists D hm b (some s) (i + 1) (by omega)
        have := h3 _ _ (.retry rfl hu hl' (by omega) hl'')
        exact ⟨rest ++ (l' ++ [.unlocked, .pause (retryPause D.consts), .report (.ackRetry i)] ++
          l''), _, by simpa using this⟩

/-- The same while waiting for the acknowledgement. -/
theorem SendInv.ack {D : Device} (hm : 1 ≤ D.consts.maxCsmaBackoffs) {b : Arr 128}
    {s : Byte} {i : Nat} {l u v : List TxEvent} (h : SendInv D b (some s) i l)
    (hu : CcaLog D.consts D.config.channel b 1 false u true)
    (hv : ∃ rest a, AckLog D.consts D.format D.config.channel s (v ++ rest) a) :
    SendCut D b (some s) (l ++ u ++ v) := by
  obtain ⟨rest, a, hv⟩ := hv
  obtain ⟨h1, h2, h3⟩ := h
  cases a with
  | true =>
    have := h3 _ _ (.acked rfl hu hv)
    exact ⟨rest ++ [.unlocked], _, by simpa using this⟩
  | false =>
    by_cases hi : i = D.consts.maxFrameRetries
    · subst hi
      have := h3 _ _ (.ackFailed rfl hu hv)
      exact ⟨rest ++ [.unlocked, .pause (retryPause D.consts), .report .ackFailed], _,
        by simpa using this⟩
    · obtain ⟨l'', o, hl''⟩ := sendLog_exists D hm b (some s) (i + 1) (by omega)
      have := h3 _ _ (.retry rfl hu hv (by omega) hl'')
      exact ⟨rest ++ ([.unlocked, .pause (retryPause D.consts), .report (.ackRetry i)] ++
        l''), _, by simpa using this⟩

/-- The same after the acknowledgement did not come. -/
theorem SendInv.after {D : Device} (hm : 1 ≤ D.consts.maxCsmaBackoffs) {b : Arr 128}
    {s : Byte} {i : Nat} {l u v w : List TxEvent} (h : SendInv D b (some s) i l)
    (hu : CcaLog D.consts D.config.channel b 1 false u true)
    (hv : AckLog D.consts D.format D.config.channel s v false)
    (hw : w <+: [.unlocked, .pause (retryPause D.consts)]) :
    SendCut D b (some s) (l ++ u ++ v ++ w) := by
  obtain ⟨r, hr⟩ := hw
  obtain ⟨h1, h2, h3⟩ := h
  by_cases hi : i = D.consts.maxFrameRetries
  · subst hi
    have := h3 _ _ (.ackFailed rfl hu hv)
    refine ⟨r ++ [.report .ackFailed], .ackFailed, ?_⟩
    have e : [.unlocked, .pause (retryPause D.consts), .report .ackFailed] =
      w ++ r ++ [.report .ackFailed] := by rw [hr]; rfl
    rw [e] at this
    simpa using this
  · obtain ⟨l'', o, hl''⟩ := sendLog_exists D hm b (some s) (i + 1) (by omega)
    have := h3 _ _ (.retry rfl hu hv (by omega) hl'')
    refine ⟨r ++ ([.report (.ackRetry i)] ++ l''), o, ?_⟩
    have e : [.unlocked, .pause (retryPause D.consts), .report (.ackRetry i)] =
      w ++ r ++ [.report (.ackRetry i)] := by rw [hr]; rfl
    rw [e] at this
    simpa using this

theorem ackRound_triple (D : Device) (hc : D.consts.maxBe ≤ 31 ∧ D.consts.minBe < 65535)
    (hm : 1 ≤ D.consts.maxCsmaBackoffs) (b : Arr 128) (seq : Option (Byte × Byte)) (i : Nat) :
    Triple txEvent (SendInv D b (seq.map (·.1)) i) (ackRound D b seq i)
      (fun r l => match r with
        | .inl i' => SendInv D b (seq.map (·.1)) i' l
        | .inr _ => ∃ o, SendLog D b (seq.map (·.1)) 1 l o)
      (SendCut D b (seq.map (·.1))) := by
  rw [ackRound]
  by_cases hlt : i < D.consts.maxFrameRetries + 1
  swap
  · exact Triple.false fun l hl => hlt (by have := hl.2.1; omega)
  rw [if_pos hlt]
  refine Triple.bind (R := fun (a : Bool × Bool) l => ∃ l0 u, SendInv D b (seq.map (·.1)) i l0 ∧
    CcaLog D.consts D.config.channel b 1 false u a.1 ∧ a.2 = a.1 ∧ l = l0 ++ u) ?_ ?_
  · refine (transmitCca_traces D.consts hc hm D.config.channel b false).triple ?_ ?_
    · intro l u hl hu
      exact hl.cca hm hu
    · intro l u a hl hu
      exact ⟨l, u, hl, hu.1, hu.2, rfl⟩
  rintro ⟨r, held⟩
  by_cases hrh : held = r
  swap
  · exact Triple.false (by rintro l ⟨l0, u, -, -, h, -⟩; exact hrh h)
  subst hrh
  cases held with
  | false =>
    refine Triple.bind (R := fun _ l => ∃ o, SendLog D b (seq.map (·.1)) 1 l o) (Triple.await ?_) ?_
    · rintro l ⟨l0, u, h0, hu, -, rfl⟩
      have := h0.2.2 _ _ (.ccaFailed hu)
      have e : SendLog D b (seq.map (·.1)) 1 (l0 ++ u ++ [.report .ccaFailed]) .ccaFailed := by
        simpa using this
      exact ⟨h0.cca hm ⟨[], _, by simpa using hu⟩, ⟨[], _, by rw [List.append_nil]; exact e⟩,
        fun _ => ⟨_, by simpa [txEvent] using e⟩⟩
    · intro _
      exact Triple.pure fun l ⟨o, hl⟩ => ⟨⟨o, hl⟩, [], o, by simpa using hl⟩
  | true =>
    cases seq with
    | none =>
      refine Triple.bind (R := fun _ l => ∃ o, SendLog D b none 1 l o) (Triple.await ?_) ?_
      · rintro l ⟨l0, u, h0, hu, -, rfl⟩
        have := h0.2.2 _ _ (.sent rfl hu)
        have e : SendLog D b none 1 (l0 ++ u ++ [.unlocked]) .sent := by simpa using this
        exact ⟨h0.cca hm ⟨[], _, by simpa using hu⟩, ⟨[], _, by rw [List.append_nil]; exact e⟩,
          fun _ => ⟨_, by simpa [txEvent] using e⟩⟩
      · intro _
        exact Triple.pure fun l ⟨o, hl⟩ => ⟨⟨o, hl⟩, [], o, by simpa using hl⟩
    | some sq =>
      obtain ⟨s, n⟩ := sq
      simp only [Option.map_some]
      refine Triple.bind (R := fun _ l => ∃ l0 u, SendInv D b (some s) i l0 ∧
        CcaLog D.consts D.config.channel b 1 false u true ∧ l = l0 ++ u) (Triple.pure ?_) ?_
      · rintro l ⟨l0, u, h0, hu, -, rfl⟩
        exact ⟨⟨l0, u, h0, hu, rfl⟩, h0.cca hm ⟨[], _, by simpa using hu⟩⟩
      intro _
      refine Triple.bind (R := fun a l => ∃ l0 u v, SendInv D b (some s) i l0 ∧
        CcaLog D.consts D.config.channel b 1 false u true ∧
        AckLog D.consts D.format D.config.channel s v a ∧ l = l0 ++ u ++ v) ?_ ?_
      · refine (await_ack_traces D s).triple ?_ ?_
        · rintro l v ⟨l0, u, h0, hu, rfl⟩ hv
          exact h0.ack hm hu hv
        · rintro l v a ⟨l0, u, h0, hu, rfl⟩ hv
          exact ⟨l0, u, v, h0, hu, hv, rfl⟩
      intro a
      cases a with
      | true =>
        refine Triple.bind (R := fun _ l => ∃ o, SendLog D b (some s) 1 l o) (Triple.await ?_) ?_
        · rintro l ⟨l0, u, v, h0, hu, hv, rfl⟩
          have := h0.2.2 _ _ (.acked rfl hu hv)
          have e : SendLog D b (some s) 1 (l0 ++ u ++ v ++ [.unlocked]) .acked := by
            simpa using this
          exact ⟨h0.ack hm hu ⟨[], _, by simpa using hv⟩, ⟨[], _, by rw [List.append_nil]; exact e⟩,
            fun _ => ⟨_, by simpa [txEvent] using e⟩⟩
        · intro _
          exact Triple.pure fun l ⟨o, hl⟩ => ⟨⟨o, hl⟩, [], o, by simpa using hl⟩
      | false =>
        refine Triple.bind (R := fun _ l => ∃ l0 u v, SendInv D b (some s) i l0 ∧
          CcaLog D.consts D.config.channel b 1 false u true ∧
          AckLog D.consts D.format D.config.channel s v false ∧ l = l0 ++ u ++ v ++ [.unlocked])
          (Triple.await ?_) ?_
        · rintro l ⟨l0, u, v, h0, hu, hv, rfl⟩
          exact ⟨h0.ack hm hu ⟨[], _, by simpa using hv⟩, h0.after hm hu hv ⟨[_], rfl⟩,
            fun _ => ⟨l0, u, v, h0, hu, hv, by simp [txEvent]⟩⟩
        intro _
        rw [retryDelay_eq]
        refine Triple.bind (R := fun _ l => ∃ l0 u v, SendInv D b (some s) i l0 ∧
          CcaLog D.consts D.config.channel b 1 false u true ∧
          AckLog D.consts D.format D.config.channel s v false ∧
          l = l0 ++ u ++ v ++ [.unlocked, .pause (retryPause D.consts)])
          (Triple.await ?_) ?_
        · rintro l ⟨l0, u, v, h0, hu, hv, rfl⟩
          have e2 := h0.after (w := [.unlocked, .pause (retryPause D.consts)]) hm hu hv ⟨[], rfl⟩
          refine ⟨h0.after hm hu hv ⟨[_], rfl⟩, ?_,
            fun _ => ⟨l0, u, v, h0, hu, hv, by simp [txEvent]⟩⟩
          rw [List.append_assoc _ [_] _]
          exact e2
        intro _
        by_cases hi : i = D.consts.maxFrameRetries
        · subst hi
          rw [if_pos rfl]
          refine Triple.bind (R := fun _ l => ∃ o, SendLog D b (some s) 1 l o) (Triple.await ?_) ?_
          · rintro l ⟨l0, u, v, h0, hu, hv, rfl⟩
            have := h0.2.2 _ _ (.ackFailed rfl hu hv)
            have e : SendLog D b (some s) 1 (l0 ++ u ++ v ++
                [.unlocked, .pause (retryPause D.consts)] ++ [.report .ackFailed]) .ackFailed := by
              simpa using this
            exact ⟨h0.after hm hu hv ⟨[], rfl⟩, ⟨[], _, by rw [List.append_nil]; exact e⟩,
              fun _ => ⟨_, by simpa [txEvent] using e⟩⟩
          · intro _
            exact Triple.pure fun l ⟨o, hl⟩ => ⟨⟨o, hl⟩, [], o, by simpa using hl⟩
        · rw [if_neg hi]
          have next : ∀ l0 u v, SendInv D b (some s) i l0 →
              CcaLog D.consts D.config.channel b 1 false u true →
              AckLog D.consts D.format D.config.channel s v false →
              SendInv D b (some s) (i + 1) (l0 ++ u ++ v ++
                [.unlocked, .pause (retryPause D.consts)] ++ [.report (.ackRetry i)]) := by
            intro l0 u v h0 hu hv
            refine ⟨by omega, by omega, fun l' o hl' => ?_⟩
            have := h0.2.2 _ _ (.retry rfl hu hv (by omega) hl')
            simpa using this
          have nextCut : ∀ l, SendInv D b (some s) (i + 1) l → SendCut D b (some s) l := by
            intro l hl
            obtain ⟨l', o, h'⟩ := sendLog_exists D hm b (some s) (i + 1) (by omega)
            exact ⟨l', o, hl.2.2 _ _ h'⟩
          refine Triple.bind (R := fun _ => SendInv D b (some s) (i + 1)) (Triple.await ?_) ?_
          · rintro l ⟨l0, u, v, h0, hu, hv, rfl⟩
            exact ⟨h0.after hm hu hv ⟨[], rfl⟩, nextCut _ (next l0 u v h0 hu hv),
              fun _ => by simpa [txEvent] using next l0 u v h0 hu hv⟩
          · intro _
            exact Triple.pure fun l hl => ⟨hl, nextCut l hl⟩

theorem send_traces (D : Device) (hc : D.consts.maxBe ≤ 31 ∧ D.consts.minBe < 65535)
    (hm : 1 ≤ D.consts.maxCsmaBackoffs) (hr : 1 ≤ D.consts.maxFrameRetries) (b : Arr 128)
    (seq : Option (Byte × Byte)) :
    Traces txEvent (.loop (ackRound D b seq) 1 : Csma.Task Unit) fun l o =>
      match o with
      | none => SendCut D b (seq.map (·.1)) l
      | some _ => ∃ o, SendLog D b (seq.map (·.1)) 1 l o := by
  rw [Traces]
  refine Triple.pre (P := SendInv D b (seq.map (·.1)) 1) ?_ ?_
  · refine Triple.loop (I := SendInv D b (seq.map (·.1))) ?_ ?_
      (fun s => (ackRound_triple D hc hm b seq s).conseq (fun _ h => h)
        (fun r l h => by cases r <;> exact h) (fun _ h => h))
    · intro i l h
      obtain ⟨l', o, h'⟩ := sendLog_exists D hm b (seq.map (·.1)) i h.2.1
      exact ⟨l', o, h.2.2 _ _ h'⟩
    · rintro _ l ⟨o, h⟩
      exact ⟨[], o, by simpa using h⟩
  · rintro l rfl
    exact ⟨Nat.le_refl 1, hr, fun l' o h => by simpa using h⟩

/-! ## The package, and the task -/

theorem reportTaskError_traces {α : Type} (r : Except TaskError α) :
    Traces txEvent (reportTaskError r) fun u o =>
      u <+: complaint r ∧ ∀ a, o = some a → u = complaint r := by
  cases r with
  | ok a =>
    rw [Traces, reportTaskError]
    refine Triple.pure ?_
    rintro l rfl
    exact ⟨⟨⟨[], rfl⟩, fun _ _ => rfl⟩, ⟨[], rfl⟩, by simp⟩
  | error e => cases e <;> exact report_traces _

theorem package_traces (D : Device) (hF : D.format.Lawful) (hc : D.consts.maxBe ≤ 31 ∧ D.consts.minBe < 65535)
    (hm : 1 ≤ D.consts.maxCsmaBackoffs) (hr : 1 ≤ D.consts.maxFrameRetries) :
    Traces txEvent (transmitPackage D) fun l o =>
      match o with
      | none => l = [] ∨ ∃ rest o, PackageLog D (l ++ rest) o
      | some _ => ∃ o, PackageLog D l o := by
  rw [Traces, transmitPackage]
  refine Triple.bind (R := fun (p : FrameBuffer) l => l = [.fetched p]) (Triple.await ?_) ?_
  · rintro l rfl
    exact ⟨Or.inl rfl, Or.inl rfl, fun r => rfl⟩
  intro (p : FrameBuffer)
  obtain ⟨r1, b1, r2, b, e1, e2, hprep⟩ := prepare D hF p.buffer
  -- from here on the log can be completed
  have sends : ∀ u, SendCut D b ((awaited r1).map (·.1)) u →
      ∃ rest o, PackageLog D ([.fetched p] ++ complaint r1 ++ complaint r2 ++ u ++ rest) o := by
    rintro u ⟨rest, o, h⟩
    refine ⟨rest, o, ?_⟩
    have := PackageLog.mk (D := D) p b _ _ _ o hprep h
    simpa using this
  have cut : ∀ u, u <+: complaint r1 ++ complaint r2 →
      ([.fetched p] ++ u = [] ∨ ∃ rest o, PackageLog D ([.fetched p] ++ u ++ rest) o) := by
    rintro u ⟨r, hr'⟩
    obtain ⟨l, o, h⟩ := sendLog_exists D hm b ((awaited r1).map (·.1)) 1 hr
    refine Or.inr ⟨r ++ l, o, ?_⟩
    have := PackageLog.mk (D := D) p b _ _ _ o hprep h
    rw [← hr'] at this
    simpa using this
  have cut0 := cut [] ⟨_, rfl⟩
  refine Triple.bind (R := fun _ l => l = [.fetched p])
    (Triple.await_neutral rfl (fun _ => rfl) ?_) ?_
  · rintro l rfl
    exact ⟨cut0, fun _ => rfl⟩
  intro _
  simp only [e1]
  refine Triple.bind (R := fun x l => x = (r1, b1) ∧ l = [.fetched p]) (Triple.lift ?_) ?_
  · rintro l rfl
    exact ⟨_, rfl, ⟨rfl, rfl⟩, cut0⟩
  intro x
  by_cases hx : x = (r1, b1)
  swap
  · exact Triple.false fun l hl => hx hl.1
  subst hx
  simp only [e2]
  refine Triple.bind (R := fun _ l => l = [.fetched p] ++ complaint r1) ?_ ?_
  · refine (reportTaskError_traces r1).triple ?_ ?_
    · rintro l u ⟨-, rfl⟩ ⟨hu, -⟩
      exact cut u (hu.trans ⟨_, rfl⟩)
    · rintro l u a ⟨-, rfl⟩ ⟨-, hu⟩
      rw [hu a rfl]
  intro _
  refine Triple.bind (R := fun x l => x = (r2, b.1) ∧ l = [.fetched p] ++ complaint r1)
    (Triple.lift ?_) ?_
  · rintro l rfl
    exact ⟨_, rfl, ⟨rfl, rfl⟩, cut _ ⟨_, rfl⟩⟩
  intro x
  by_cases hx : x = (r2, b.1)
  swap
  · exact Triple.false fun l hl => hx hl.1
  subst hx
  simp only [asBuffer_ok]
  refine Triple.bind (R := fun _ l => l = [.fetched p] ++ complaint r1 ++ complaint r2) ?_ ?_
  · refine (reportTaskError_traces r2).triple ?_ ?_
    · rintro l u ⟨-, rfl⟩ ⟨⟨v, hu⟩, -⟩
      have := cut (complaint r1 ++ u) ⟨v, by rw [List.append_assoc, hu]⟩
      rw [List.append_assoc]
      exact this
    · rintro l u a ⟨-, rfl⟩ ⟨-, hu⟩
      rw [hu a rfl]
  intro _
  refine Triple.bind (R := fun x l => x = b ∧ l = [.fetched p] ++ complaint r1 ++ complaint r2)
    (Triple.lift ?_) ?_
  · rintro l rfl
    refine ⟨_, rfl, ⟨rfl, rfl⟩, ?_⟩
    have := cut (complaint r1 ++ complaint r2) ⟨[], by simp⟩
    rwa [← List.append_assoc] at this
  intro x
  by_cases hx : x = b
  swap
  · exact Triple.false fun l hl => hx hl.1
  subst hx
  refine (send_traces D hc hm hr x (awaited r1)).triple ?_ ?_
  · rintro l u ⟨-, rfl⟩ hu
    exact Or.inr (sends u hu)
  · rintro l u a ⟨-, rfl⟩ ⟨o, hu⟩
    refine ⟨o, ?_⟩
    have := PackageLog.mk (D := D) p x _ _ _ o hprep hu
    simpa using this

/-- All packages have been dealt with. -/
def Settled (D : Device) (l : List TxEvent) : Prop :=
  ∃ packages : List (List TxEvent), l = packages.flatten ∧ ∀ r ∈ packages, ∃ o, PackageLog D r o

theorem Settled.log {D : Device} {l : List TxEvent} (h : Settled D l) : TransmitLog D l := by
  obtain ⟨packages, rfl, hall⟩ := h
  exact ⟨packages, [], by simp, hall, Or.inl rfl⟩

theorem transmitTask_triple (D : Device) (hF : D.format.Lawful) (hc : D.consts.maxBe ≤ 31 ∧ D.consts.minBe < 65535)
    (hm : 1 ≤ D.consts.maxCsmaBackoffs) (hr : 1 ≤ D.consts.maxFrameRetries) :
    Triple txEvent (fun l => l = []) (transmitTask D) (fun _ _ => False) (TransmitLog D) := by
  refine Triple.pre (P := Settled D) ?_ ?_
  · refine Triple.loop (s := ()) (I := fun (_ : Unit) => Settled D)
      (fun _ l h => h.log) (fun a => Empty.elim a) ?_
    intro _
    refine Triple.bind (R := fun _ => Settled D) ?_ ?_
    · refine (package_traces D hF hc hm hr).triple ?_ ?_
      · rintro l u ⟨packages, rfl, hall⟩ hu
        exact ⟨packages, u, rfl, hall, hu⟩
      · rintro l u a ⟨packages, rfl, hall⟩ hu
        refine ⟨packages ++ [u], by simp, fun x hx => ?_⟩
        rcases List.mem_append.1 hx with hx | hx
        · exact hall x hx
        · simp only [List.mem_singleton] at hx; subst hx; exact hu
    · intro _
      exact Triple.pure fun l hl => ⟨hl, hl.log⟩
  · rintro l rfl
    exact ⟨[], rfl, by simp⟩

/-! ## Reading the grammar -/

theorem interleave_fm {E B : Type} {f : E → Option B} {l1 l2 l : List E} (h : Interleave l1 l2 l)
    (h2 : l2.filterMap f = []) : l.filterMap f = l1.filterMap f := by
  induction h with
  | nil => rfl
  | left _ ih => simp [List.filterMap_cons, ih h2]
  | @right x t1 t2 t _ ih =>
    rw [List.filterMap_cons] at h2
    cases hx : f x with
    | none => rw [hx] at h2; simp [List.filterMap_cons, hx, ih h2]
    | some b => rw [hx] at h2; cases h2

theorem Listening.facts {F : RadioFormat} {ch : PhyChannel} {s : Byte} {l : List TxEvent}
    {a : Bool} (h : Listening F ch s l a) :
    attempts l = [] ∧ results l = [] ∧ reports l = [] ∧ pauses l = [] ∧ randoms l = [] ∧
    (∀ held, holding held l = held) ∧
    if a = true then ∃ b rest, heards l = rest ++ [(true, b)] ∧ ValidAck F s b ∧
        ∀ x ∈ rest, ¬ (x.1 = true ∧ ValidAck F s x.2)
      else ∀ x ∈ heards l, ¬ (x.1 = true ∧ ValidAck F s x.2) := by
  induction h with
  | @acked b hb =>
    refine ⟨rfl, rfl, rfl, rfl, rfl, fun _ => rfl, ?_⟩
    exact ⟨b, [], rfl, hb, by simp⟩
  | still => exact ⟨rfl, rfl, rfl, rfl, rfl, fun _ => rfl, by simp [heards]⟩
  | @more r b l a hno _ ih =>
    obtain ⟨h1, h2, h3, h4, h5, h6, h7⟩ := ih
    refine ⟨h1, h2, h3, h4, h5, h6, ?_⟩
    have e : heards (.listen ⟨ch⟩ :: .heard r b :: l) = (r, b) :: heards l := rfl
    rw [e]
    cases a with
    | true =>
      obtain ⟨b', rest, e1, e2, e3⟩ := h7
      refine ⟨b', (r, b) :: rest, by rw [e1]; rfl, e2, fun x hx => ?_⟩
      rcases List.mem_cons.1 hx with rfl | hx
      · exact hno
      · exact e3 x hx
    | false =>
      intro x hx
      rcases List.mem_cons.1 hx with rfl | hx
      · exact hno
      · exact h7 x hx

theorem interleave_holding {l1 l2 l : List TxEvent} (h : Interleave l1 l2 l)
    (h1 : ∀ held, holding held l1 = held) (h2 : l2 = [] ∨ ∃ us, l2 = [.pause us]) :
    ∀ held, holding held l = held := by
  rcases h2 with rfl | ⟨us, rfl⟩
  · rw [interleave_nil_right h]; exact h1
  · have key : ∀ (l1 l : List TxEvent), Interleave l1 [.pause us] l → ∀ held,
        holding held l = holding held l1 := by
      intro l1
      induction l1 with
      | nil => intro l h held; rw [interleave_nil_left h]; rfl
      | cons x l1 ih =>
        intro l h held
        cases h with
        | left h => exact ih _ h _
        | right h => rw [interleave_nil_right h]; rfl
    intro held
    rw [key l1 l h, h1]

theorem AckLog.facts {c : Consts} {F : RadioFormat} {ch : PhyChannel} {s : Byte}
    {l : List TxEvent} {a : Bool} (h : AckLog c F ch s l a) :
    attempts l = [] ∧ results l = [] ∧ reports l = [] ∧ (∀ held, holding held l = held) ∧
    if a = true then ∃ b rest, heards l = rest ++ [(true, b)] ∧ ValidAck F s b ∧
        ∀ x ∈ rest, ¬ (x.1 = true ∧ ValidAck F s x.2)
      else ∀ x ∈ heards l, ¬ (x.1 = true ∧ ValidAck F s x.2) := by
  have key : ∃ l1 l2, Listening F ch s l1 a ∧ (l2 = [] ∨ l2 = [.pause (ackWait c)]) ∧
      Interleave l1 l2 l := by
    cases h with
    | @acked l1 l2 _ h1 h2 h3 => exact ⟨l1, l2, h1, h2, h3⟩
    | @timeout l1 _ h1 h3 => exact ⟨l1, _, h1, Or.inr rfl, h3⟩
  obtain ⟨l1, l2, h1, h2, h3⟩ := key
  obtain ⟨f1, f2, f3, -, -, f6, f7⟩ := (Listening.facts h1)
  have e2 : attempts l2 = [] ∧ results l2 = [] ∧ reports l2 = [] ∧ heards l2 = [] := by
    rcases h2 with rfl | rfl <;> exact ⟨rfl, rfl, rfl, rfl⟩
  have e3 : heards l = heards l1 := interleave_fm h3 e2.2.2.2
  rw [e3]
  exact ⟨(interleave_fm h3 e2.1).trans f1, (interleave_fm h3 e2.2.1).trans f2,
    (interleave_fm h3 e2.2.2.1).trans f3,
    interleave_holding h3 f6 (h2.imp id fun h => ⟨_, h⟩), f7⟩

theorem retries_append (l m : List TxEvent) : retries (l ++ m) = retries l ++ retries m := by
  rw [retries, reports_append, List.filterMap_append]
  rfl

theorem holding_append (held : Bool) (l m : List TxEvent) :
    holding held (l ++ m) = holding (holding held l) m := List.foldl_append

theorem CcaLog.facts_heard {c : Consts} {ch : PhyChannel} {b : Arr 128} {i : Nat} {held : Bool}
    {l : List TxEvent} {res : Bool} (h : CcaLog c ch b i held l res) :
    heards l = [] ∧ retries l = [] ∧ (reports l).filter terminal = [] := by
  induction h with
  | @sent i held hi => cases held <;> exact ⟨rfl, rfl, rfl⟩
  | @failed held => cases held <;> exact ⟨rfl, rfl, rfl⟩
  | @again i held r l l' res hi hl _ ih =>
    obtain ⟨h1, h2, h3⟩ := ih
    have e : (terminal (.ccaBackoff i)) = false := rfl
    rcases interleave_21 hl with rfl | rfl | rfl <;> cases held <;>
      simp [taking, heards, retries, reports, e] <;>
      exact ⟨by simpa [heards] using h1, by simpa [retries, reports] using h2,
        by simpa [reports] using h3⟩

/-- What a complete history of the transmissions of a package looks like. -/
theorem SendLog.facts {D : Device} {b : Arr 128} {seq : Option Byte} {i : Nat} {l : List TxEvent}
    {o : TxOutcome} (h : SendLog D b seq i l o) :
    ∃ n, (n = 0 ∨ i + n ≤ D.consts.maxFrameRetries) ∧
      (∀ x ∈ attempts l, x = (b, ⟨D.config.channel, true⟩)) ∧
      (attempts l).length ≤ (n + 1) * D.consts.maxCsmaBackoffs ∧
      (results l).count true = n + (if o = .ccaFailed then 0 else 1) ∧
      retries l = List.range' i n ∧
      (reports l).filter terminal = o.reported ∧
      holding false l = false ∧
      (seq = none → n = 0 ∧ heards l = []) ∧
      Justified D seq (i + n) (heards l) o := by
  induction h with
  | @ccaFailed i l hl =>
    obtain ⟨m, g1, g2, g3, g4, g5, -, -, g8, g9⟩ := CcaLog.facts hl
    obtain ⟨k1, k2, k3⟩ := CcaLog.facts_heard hl
    refine ⟨0, Or.inl rfl, ?_, ?_, ?_, ?_, ?_, ?_, ?_, ?_⟩
    · intro x hx
      rw [attempts_append, g3] at hx
      simpa [attempts] using hx
    · rw [attempts_append, g3]; simp [attempts]; omega
    · rw [results_append, g4]; simp [results, List.count_replicate]
    · rw [retries_append, k2]; rfl
    · rw [reports_append, List.filter_append, k3]; rfl
    · rw [holding_append, g9]; rfl
    · intro _; rw [heards_append, k1]; exact ⟨rfl, rfl⟩
    · intro s _ x hx
      rw [heards_append, k1] at hx
      simp [heards] at hx
  | @sent i l hs hl =>
    obtain ⟨m, g1, g2, g3, g4, g5, -, -, g8, g9⟩ := CcaLog.facts hl
    obtain ⟨k1, k2, k3⟩ := CcaLog.facts_heard hl
    refine ⟨0, Or.inl rfl, ?_, ?_, ?_, ?_, ?_, ?_, ?_, hs⟩
    · intro x hx
      rw [attempts_append, g3] at hx
      simpa [attempts] using hx
    · rw [attempts_append, g3]; simp [attempts]; omega
    · rw [results_append, g4]; simp [results, List.count_replicate]
    · rw [retries_append, k2]; rfl
    · rw [reports_append, List.filter_append, k3]; rfl
    · rw [holding_append, g9]; rfl
    · intro _; rw [heards_append, k1]; exact ⟨rfl, rfl⟩
  | @acked i l l' s hs hl hl' =>
    obtain ⟨m, g1, g2, g3, g4, g5, -, -, g8, g9⟩ := CcaLog.facts hl
    obtain ⟨k1, k2, k3⟩ := CcaLog.facts_heard hl
    obtain ⟨a1, a2, a3, a4, a5⟩ := AckLog.facts hl'
    have a6 : retries l' = [] := by rw [retries, a3]; rfl
    refine ⟨0, Or.inl rfl, ?_, ?_, ?_, ?_, ?_, ?_, ?_, ?_⟩
    · intro x hx
      rw [attempts_append, attempts_append, g3, a1] at hx
      simpa [attempts] using hx
    · rw [attempts_append, attempts_append, g3, a1]; simp [attempts]; omega
    · rw [results_append, results_append, g4, a2]; simp [results, List.count_replicate]
    · rw [retries_append, retries_append, k2, a6]; rfl
    · rw [reports_append, reports_append, a3, List.filter_append, List.filter_append, k3]; rfl
    · rw [holding_append, holding_append, g9, a4]; rfl
    · intro hn; rw [hs] at hn; cases hn
    · obtain ⟨buf, rest, e1, e2, e3⟩ := a5
      exact ⟨s, buf, rest, hs, by rw [heards_append, heards_append, k1, e1]; simp [heards], e2, e3⟩
  | @ackFailed l l' s hs hl hl' =>
    obtain ⟨m, g1, g2, g3, g4, g5, -, -, g8, g9⟩ := CcaLog.facts hl
    obtain ⟨k1, k2, k3⟩ := CcaLog.facts_heard hl
    obtain ⟨a1, a2, a3, a4, a5⟩ := AckLog.facts hl'
    have a6 : retries l' = [] := by rw [retries, a3]; rfl
    refine ⟨0, Or.inl rfl, ?_, ?_, ?_, ?_, ?_, ?_, ?_, ?_⟩
    · intro x hx
      rw [attempts_append, attempts_append, g3, a1] at hx
      simpa [attempts] using hx
    · rw [attempts_append, attempts_append, g3, a1]; simp [attempts]; omega
    · rw [results_append, results_append, g4, a2]; simp [results, List.count_replicate]
    · rw [retries_append, retries_append, k2, a6]; rfl
    · rw [reports_append, reports_append, a3, List.filter_append, List.filter_append, k3]; rfl
    · rw [holding_append, holding_append, g9, a4]; rfl
    · intro hn; rw [hs] at hn; cases hn
    · refine ⟨rfl, s, hs, ?_⟩
      intro x hx
      rw [heards_append, heards_append, k1] at hx
      exact a5 x (by simpa [heards] using hx)
  | @retry i l l' s l'' o hs hl hl' hi _ ih =>
    obtain ⟨m, g1, g2, g3, g4, g5, -, -, g8, g9⟩ := CcaLog.facts hl
    obtain ⟨k1, k2, k3⟩ := CcaLog.facts_heard hl
    obtain ⟨a1, a2, a3, a4, a5⟩ := AckLog.facts hl'
    have a6 : retries l' = [] := by rw [retries, a3]; rfl
    obtain ⟨n, i1, i2, i3, i4, i5, i6, i7, i8, i9⟩ := ih
    have hh : ∀ x ∈ heards (l ++ l' ++ [.unlocked, .pause (retryPause D.consts),
        .report (.ackRetry i)]), ¬ (x.1 = true ∧ ValidAck D.format s x.2) := by
      intro x hx
      rw [heards_append, heards_append, k1] at hx
      exact a5 x (by simpa [heards] using hx)
    refine ⟨n + 1, Or.inr (by omega), ?_, ?_, ?_, ?_, ?_, ?_, ?_, ?_⟩
    · intro x hx
      rw [attempts_append, List.mem_append] at hx
      rcases hx with hx | hx
      · rw [attempts_append, attempts_append, g3, a1] at hx
        simpa [attempts] using hx
      · exact i2 x hx
    · rw [attempts_append, attempts_append, attempts_append, g3, a1]
      simp [attempts] at i3 ⊢
      have : (n + 1 + 1) * D.consts.maxCsmaBackoffs =
        (n + 1) * D.consts.maxCsmaBackoffs + D.consts.maxCsmaBackoffs := Nat.succ_mul _ _
      omega
    · rw [results_append, results_append, results_append, g4, a2, List.count_append, i4]
      simp [results, List.count_replicate]
      omega
    · rw [retries_append, retries_append, retries_append, k2, a6, i5]
      simp [retries, reports, List.range'_succ]
    · rw [reports_append, reports_append, reports_append, a3, List.filter_append,
        List.filter_append, List.filter_append, k3, i6]
      rfl
    · rw [holding_append, holding_append, holding_append, g9, a4]
      exact i7
    · intro hn; rw [hs] at hn; cases hn
    · have hmem : ∀ x, x ∈ heards (l ++ l' ++ [.unlocked, .pause (retryPause D.consts),
          .report (.ackRetry i)] ++ l'') → x ∈ heards (l ++ l' ++ [.unlocked,
          .pause (retryPause D.consts), .report (.ackRetry i)]) ∨ x ∈ heards l'' := by
        intro x hx
        rw [heards_append, List.mem_append] at hx
        exact hx
      cases o with
      | sent => exact absurd (hs.symm.trans i9) (by simp)
      | ccaFailed =>
        intro s' hs' x hx
        rcases hmem x hx with hx | hx
        · rw [hs] at hs'; cases hs'; exact hh x hx
        · exact i9 s' hs' x hx
      | ackFailed =>
        obtain ⟨e1, s', e2, e3⟩ := i9
        refine ⟨by omega, s', e2, fun x hx => ?_⟩
        rcases hmem x hx with hx | hx
        · rw [hs] at e2; cases e2; exact hh x hx
        · exact e3 x hx
      | acked =>
        obtain ⟨s', buf, rest, e1, e2, e3, e4⟩ := i9
        refine ⟨s', buf, heards (l ++ l' ++ [.unlocked,
          .pause (retryPause D.consts), .report (.ackRetry i)]) ++ rest, e1,
          by rw [heards_append, e2, ← List.append_assoc], e3, fun x hx => ?_⟩
        rcases List.mem_append.1 hx with hx | hx
        · rw [hs] at e1; cases e1; exact hh x hx
        · exact e4 x hx

theorem Prepared.facts {D : Device} {p b : Arr 128} {seq : Option Byte} {l : List TxEvent}
    (h : Prepared D p b seq l) : attempts l = [] ∧ results l = [] ∧ heards l = [] ∧
      retries l = [] ∧ (reports l).filter terminal = [] ∧ fetches l = [] ∧ holding false l = false := by
  cases h <;> exact ⟨rfl, rfl, rfl, rfl, rfl, rfl, rfl⟩

theorem CcaLog.no_fetch {c : Consts} {ch : PhyChannel} {b : Arr 128} {i : Nat} {held : Bool}
    {l : List TxEvent} {res : Bool} (h : CcaLog c ch b i held l res) : fetches l = [] := by
  induction h with
  | @sent i held hi => cases held <;> rfl
  | @failed held => cases held <;> rfl
  | @again i held r l l' res hi hl _ ih =>
    rcases interleave_21 hl with rfl | rfl | rfl <;> cases held <;>
      simp [taking, fetches] <;> simpa [fetches] using ih

theorem AckLog.no_fetch {c : Consts} {F : RadioFormat} {ch : PhyChannel} {s : Byte}
    {l : List TxEvent} {a : Bool} (h : AckLog c F ch s l a) : fetches l = [] := by
  have key : ∀ {l a}, Listening F ch s l a → fetches l = [] := by
    intro l a h
    induction h with
    | acked => rfl
    | still => rfl
    | more _ _ ih => exact ih
  cases h with
  | @acked l1 l2 _ h1 h2 h3 =>
    exact (interleave_fm h3 (by rcases h2 with rfl | rfl <;> rfl)).trans (key h1)
  | @timeout l1 _ h1 h3 => exact (interleave_fm h3 rfl).trans (key h1)

theorem SendLog.no_fetch {D : Device} {b : Arr 128} {seq : Option Byte} {i : Nat}
    {l : List TxEvent} {o : TxOutcome} (h : SendLog D b seq i l o) : fetches l = [] := by
  induction h with
  | ccaFailed hl => rw [fetches_append, CcaLog.no_fetch hl]; rfl
  | sent _ hl => rw [fetches_append, CcaLog.no_fetch hl]; rfl
  | acked _ hl hl' =>
    rw [fetches_append, fetches_append, CcaLog.no_fetch hl, AckLog.no_fetch hl']; rfl
  | ackFailed _ hl hl' =>
    rw [fetches_append, fetches_append, CcaLog.no_fetch hl, AckLog.no_fetch hl']; rfl
  | retry _ hl hl' _ _ ih =>
    rw [fetches_append, fetches_append, fetches_append, CcaLog.no_fetch hl, AckLog.no_fetch hl', ih]
    rfl

/-- **C48**, what the grammar of a package says.  A package was fetched and prepared once; at most
`MAC_MAX_FRAME_RETRIES` transmissions of the prepared buffer got on the air, with at most
`MAC_MAX_CSMA_BACKOFFS` attempts each; a transmission was repeated only after no acknowledgement was
heard and that was reported, in order; exactly one terminal error is reported if the package failed
and none if it did not; "acknowledged" means that the last thing heard was the matching
acknowledgement, and "sent" that none was awaited; and in the end the radio is released. -/
theorem C48_package {D : Device} (hr : 1 ≤ D.consts.maxFrameRetries) {l : List TxEvent}
    {o : TxOutcome} (h : PackageLog D l o) :
    ∃ (p : FrameBuffer) (b : Arr 128) (seq : Option Byte) (complaints : List TxEvent) (n : Nat),
      fetches l = [p] ∧ l.head? = some (.fetched p) ∧ Prepared D p.buffer b seq complaints ∧
      n ≤ D.consts.maxFrameRetries ∧
      (∀ x ∈ attempts l, x = (b, ⟨D.config.channel, true⟩)) ∧
      (attempts l).length ≤ D.consts.maxFrameRetries * D.consts.maxCsmaBackoffs ∧
      (results l).count true = (if o = .ccaFailed then n - 1 else n) ∧ 1 ≤ n ∧
      retries l = List.range' 1 (n - 1) ∧
      (reports l).filter terminal = o.reported ∧
      holding false l = false ∧
      (seq = none → n = 1 ∧ heards l = []) ∧
      Justified D seq n (heards l) o := by
  obtain ⟨p, b, seq, complaints, l, o, hp, hs⟩ := h
  obtain ⟨q1, q2, q3, q4, q5, q6, q7⟩ := Prepared.facts hp
  obtain ⟨n, i1, i2, i3, i4, i5, i6, i7, i8, i9⟩ := SendLog.facts hs
  have e : .fetched p :: complaints ++ l = [.fetched p] ++ complaints ++ l := by simp
  have hn : 1 + n ≤ D.consts.maxFrameRetries := by omega
  refine ⟨p, b, seq, complaints, 1 + n, ?_, rfl, hp, hn, ?_, ?_, ?_, by omega, ?_, ?_, ?_, ?_, ?_⟩
  · rw [e, fetches_append, fetches_append, q6, SendLog.no_fetch hs]; rfl
  · intro x hx
    rw [e, attempts_append, attempts_append, q1] at hx
    exact i2 x (by simpa [attempts] using hx)
  · rw [e, attempts_append, attempts_append, q1]
    have : (n + 1) * D.consts.maxCsmaBackoffs ≤
        D.consts.maxFrameRetries * D.consts.maxCsmaBackoffs :=
      Nat.mul_le_mul_right _ (by omega)
    simp [attempts] at i3 ⊢
    omega
  · rw [e, results_append, results_append, q2]
    simp only [results, List.filterMap_cons, List.filterMap_nil, List.nil_append] at i4 ⊢
    rw [i4]
    split <;> omega
  · rw [e, retries_append, retries_append, q4, i5, Nat.add_sub_cancel_left]; rfl
  · rw [e, reports_append, reports_append, List.filter_append, List.filter_append, q5, i6]; rfl
  · rw [e, holding_append, holding_append]
    show holding (holding false complaints) l = false
    rw [q7, i7]
  · intro hq
    rw [e, heards_append, heards_append, q3, (i8 hq).2]
    exact ⟨by rw [(i8 hq).1], rfl⟩
  · rw [e, heards_append, heards_append, q3]
    exact i9

/-- A package that holds no frame: reported twice, then transmitted as it is. -/
example (p : FrameBuffer) (hp : lengthFormat.frameLen p.buffer.1 = none) : PackageLog exampleDevice
    [.fetched p, .report .invalidDeviceStructure, .report .invalidDeviceStructure, .locked,
      .attempt p.buffer ⟨.c26, true⟩, .result true, .unlocked] .sent :=
  .mk p p.buffer none _ _ _ (.noDeviceFrame hp rfl)
    (.sent (l := [.locked, .attempt _ _, .result true]) rfl (.sent (held := false) (by decide)))

set_option maxRecDepth 4000 in
example : lengthFormat.frameLen (200 :: List.replicate 127 0) = none := rfl

/-- With `MAC_MAX_FRAME_RETRIES` = 0 the device never transmits anything, and reports no error about
it. -/
theorem C48_zero (D : Device) (hr : D.consts.maxFrameRetries = 0) (frame : Arr 128)
    (seq : Option (Byte × Byte)) {t : List (Ev CallAns)} {o : Fin Unit}
    (he : Exec (.loop (ackRound D frame seq) 1 : Csma.Task Unit) t o) : t = [] := by
  have key : Triple some (fun l => l = []) (.loop (ackRound D frame seq) 1 : Csma.Task Unit)
      (fun _ l => l = []) (fun l => l = []) := by
    refine Triple.pre (P := fun l => (1 : Nat) = 1 ∧ l = []) ?_ (fun l hl => ⟨rfl, hl⟩)
    refine Triple.loop (I := fun i l => i = 1 ∧ l = []) (fun _ _ h => h.2) (fun _ _ h => h) ?_
    intro s
    by_cases hs : s = 1
    · rw [ackRound, if_neg (by rw [hs, hr]; decide)]
      exact Triple.pure fun l hl => ⟨hl.2, hl.2⟩
    · exact Triple.false fun l hl => hs hl.1
  have := key [] t o rfl he
  simp only [List.filterMap_some, List.nil_append] at this
  cases o with
  | panicked => exact this.elim
  | cut => exact this
  | pending => exact this
  | done a => exact this

example (frame : Arr 128) : Exec (.loop (ackRound { exampleDevice with consts := { maxFrameRetries := 0 } }
    frame none) 1 : Csma.Task Unit) [] (.done ()) := by
  exact .loopDone (.pure _)

end Dot15d4.Props
