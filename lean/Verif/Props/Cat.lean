import Verif.Model.Cat
import Verif.Props.ParseSafe
import Verif.Props.FrameControl
import Verif.Props.Address
import Verif.Lemmas.NoErr

/-! # C54: the command line decoder -/

namespace Dot15d4.Props
open Out Spec Cat

/-! ## What is printed -/

/-- Lines moved to the right. -/
def shift (n : Nat) (L : List (Nat × Line)) : List (Nat × Line) := L.map fun l => (n + l.1, l.2)

theorem shift_zero (L : List (Nat × Line)) : shift 0 L = L := by simp [shift]
theorem shift_append (n : Nat) (L M : List (Nat × Line)) : shift n (L ++ M) = shift n L ++ shift n M := by
  simp [shift]
theorem shift_shift (m n : Nat) (L : List (Nat × Line)) : shift m (shift n L) = shift (m + n) L := by
  simp [shift, Nat.add_assoc]

/-- Under the condition `P` the program part prints the lines `L` at the current indentation; otherwise
it panics. -/
def Shows (f : Writer → Out Writer) (P : Prop) (L : List (Nat × Line)) : Prop :=
  (P → ∀ w, f w = .ok ⟨w.lines ++ shift w.indent L, w.indent⟩) ∧ (¬ P → ∀ w, f w = .panic)

/-- The same, for some lines of which `S` holds. -/
def Prints (f : Writer → Out Writer) (P : Prop) (S : List (Nat × Line) → Prop) : Prop :=
  ∃ L, Shows f P L ∧ (P → S L)

/-- The lists `Ls` belong one by one to the items `l`. -/
inductive Each {α β : Type} (R : α → β → Prop) : List α → List β → Prop
  | nil : Each R [] []
  | cons {a b l m} : R a b → Each R l m → Each R (a :: l) (b :: m)

theorem Shows.congr {f : Writer → Out Writer} {P Q : Prop} {L : List (Nat × Line)} (h : Shows f P L)
    (hq : P ↔ Q) : Shows f Q L := by
  rwa [← propext hq]

theorem Prints.congr {f : Writer → Out Writer} {P Q : Prop} {S} (h : Prints f P S) (hq : P ↔ Q) :
    Prints f Q S := h.imp fun _ h => ⟨h.1.congr hq, fun q => h.2 (hq.mpr q)⟩

theorem Prints.mono {f : Writer → Out Writer} {P : Prop} {S S' : List (Nat × Line) → Prop}
    (h : Prints f P S) (hs : ∀ L, S L → S' L) : Prints f P S' :=
  h.imp fun _ h => ⟨h.1, fun p => hs _ (h.2 p)⟩

theorem shows_id : Shows .ok True [] :=
  ⟨fun _ w => by simp [shift], fun h => absurd trivial h⟩

theorem shows_writeln (l : Line) : Shows (fun w => .ok (w.writeln l)) True [(0, l)] :=
  ⟨fun _ w => by simp [shift, Writer.writeln], fun h => absurd trivial h⟩

theorem shows_panic : Shows (fun _ => .panic) False [] :=
  ⟨fun h => h.elim, fun _ _ => rfl⟩

theorem Shows.seq {f g : Writer → Out Writer} {P Q : Prop} {L M : List (Nat × Line)}
    (hf : Shows f P L) (hg : Shows g Q M) : Shows (fun w => f w >>= g) (P ∧ Q) (L ++ M) := by
  refine ⟨fun h w => ?_, fun h w => ?_⟩ <;> show f w >>= g = _
  · rw [hf.1 h.1, bind_ok, hg.1 h.2, shift_append, List.append_assoc]
  · by_cases hp : P
    · rw [hf.1 hp, bind_ok, hg.2 fun hq => h ⟨hp, hq⟩]
    · rw [hf.2 hp]; rfl

theorem Shows.line {f : Writer → Out Writer} {P : Prop} {L : List (Nat × Line)} (hf : Shows f P L)
    (l : Line) : Shows (fun w => f (w.writeln l)) P ((0, l) :: L) := by
  refine ⟨fun h w => ?_, fun h w => hf.2 h _⟩
  show f _ = _
  rw [hf.1 h]
  simp [Writer.writeln, shift]

theorem Shows.indented {f : Writer → Out Writer} {P : Prop} {L : List (Nat × Line)} (hf : Shows f P L) :
    Shows (fun w => f w.increaseIndent >>= Writer.decreaseIndent) P (shift 2 L) := by
  refine ⟨fun h w => ?_, fun h w => ?_⟩
  · show f _ >>= _ = _
    rw [hf.1 h, bind_ok, shift_shift]
    simp [Writer.increaseIndent, Writer.decreaseIndent]
  · show f _ >>= _ = _
    rw [hf.2 h]; rfl

/-- A value read first: printed if reading succeeds; reading must not return `Err`. -/
theorem Shows.read {α : Type} {o : Out α} (ho : NoErr o) {f : α → Writer → Out Writer} {P : α → Prop}
    {L : α → List (Nat × Line)} (hf : ∀ a, o = .ok a → Shows (f a) (P a) (L a)) :
    Shows (fun w => o >>= fun a => f a w) (∃ a, o = .ok a ∧ P a)
      (match o with | .ok a => L a | _ => []) := by
  cases o with
  | err => exact absurd rfl ho.ne
  | panic => exact ⟨fun h => absurd h (by simp), fun _ _ => rfl⟩
  | ok a => exact (hf a rfl).congr ⟨fun h => ⟨a, rfl, h⟩, fun ⟨_, h, h'⟩ => by cases h; exact h'⟩

theorem Prints.seq {f g : Writer → Out Writer} {P Q : Prop} {S T : List (Nat × Line) → Prop}
    (hf : Prints f P S) (hg : Prints g Q T) :
    Prints (fun w => f w >>= g) (P ∧ Q) (fun L => ∃ M N, S M ∧ T N ∧ L = M ++ N) := by
  obtain ⟨L, hf, hs⟩ := hf
  obtain ⟨M, hg, ht⟩ := hg
  exact ⟨_, hf.seq hg, fun h => ⟨L, M, hs h.1, ht h.2, rfl⟩⟩

theorem Prints.line {f : Writer → Out Writer} {P : Prop} {S : List (Nat × Line) → Prop} {l : Line}
    (hf : Prints f P (fun L => S ((0, l) :: L))) : Prints (fun w => f (w.writeln l)) P S := by
  obtain ⟨L, hf, hs⟩ := hf
  exact ⟨_, hf.line l, hs⟩

theorem Prints.indented {f : Writer → Out Writer} {P : Prop} {S : List (Nat × Line) → Prop}
    (hf : Prints f P (fun L => S (shift 2 L))) :
    Prints (fun w => f w.increaseIndent >>= Writer.decreaseIndent) P S := by
  obtain ⟨L, hf, hs⟩ := hf
  exact ⟨_, hf.indented, hs⟩

theorem prints_writeln {l : Line} {S : List (Nat × Line) → Prop} (h : S [(0, l)]) :
    Prints (fun w => .ok (w.writeln l)) True S := ⟨_, shows_writeln l, fun _ => h⟩

theorem prints_forVec {α : Type} (body : α → Writer → Out Writer) (P : α → Prop)
    (R : α → List (Nat × Line) → Prop) :
    ∀ l : List α, (∀ a ∈ l, Prints (body a) (P a) (R a)) →
      Prints (forVec body l) (∀ a ∈ l, P a) (fun L => ∃ Ls, Each R l Ls ∧ L = Ls.flatten)
  | [], _ => ⟨_, shows_id.congr (by simp), fun _ => ⟨[], .nil, rfl⟩⟩
  | a :: l, h => by
    have := (h a (by simp)).seq (prints_forVec body P R l fun x hx => h x (by simp [hx]))
    refine (this.congr (by simp)).mono ?_
    rintro _ ⟨M, _, h1, ⟨Ls, h2, rfl⟩, rfl⟩
    exact ⟨M :: Ls, .cons h1 h2, rfl⟩

theorem forIter_eq {σ α : Type} (next : σ → Out (Option α × σ)) (body : α → Writer → Out Writer)
    (fuel : Nat) (it it' : σ) (items : List α) (h : drain next fuel it = .ok (items, it')) (w : Writer) :
    forIter next body fuel it w = forVec body items w := by
  rw [forIter, forLoop_drain _ _ _ _ _ _ _ h]
  clear h
  induction items generalizing w with
  | nil => rfl
  | cons a l ih =>
    rw [loopList, forVec]
    cases body a w with
    | err => rfl
    | panic => rfl
    | ok w' => simp only [bind_ok]; exact ih w'

theorem prints_forIter {σ α : Type} {next : σ → Out (Option α × σ)} {body : α → Writer → Out Writer}
    {fuel : Nat} {it it' : σ} {items : List α} (h : drain next fuel it = .ok (items, it'))
    (P : α → Prop) (R : α → List (Nat × Line) → Prop) (hb : ∀ a ∈ items, Prints (body a) (P a) (R a)) :
    Prints (fun w => forIter next body fuel it w) (∀ a ∈ items, P a)
      (fun L => ∃ Ls, Each R items Ls ∧ L = Ls.flatten) := by
  obtain ⟨L, hL, hs⟩ := prints_forVec body P R items hb
  refine ⟨L, ⟨fun hp w => ?_, fun hp w => ?_⟩, hs⟩ <;> simp only [forIter_eq _ _ _ _ _ _ h]
  · exact hL.1 hp w
  · exact hL.2 hp w

/-! ## The parts of the decoder -/

/-- The lines for the frame control field. -/
def fcLines (fc : FrameControlRepr) : List (Nat × Line) :=
  (0, .text "Frame Control") :: [
    (2, .frameType (fc.frameVersion == .v2020 && (fc.frameType == .beacon || fc.frameType == .ack))
      fc.frameType),
    (2, .bit "security" fc.securityEnabled), (2, .bit "frame pending" fc.framePending),
    (2, .bit "ack request" fc.ackRequest), (2, .bit "pan id compression" fc.panIdCompression),
    (2, .bit "sequence number suppression" fc.seqNoSuppression),
    (2, .bit "information elements present" fc.iePresent),
    (2, .mode "dst addressing mode" fc.dstMode), (2, .mode "src addressing mode" fc.srcMode),
    (2, .version fc.frameVersion)]

theorem fc_pending (o0 o1 : Byte) (l : Bytes) :
    FrameControl.framePending (o0 :: o1 :: l) = .ok (decodeFc o0 o1).framePending :=
  (C01_getters_decode o0 o1 l).2.2.1

theorem shows_frameControl (o0 o1 : Byte) :
    Shows (Cat.frameControl [o0, o1]) True (fcLines (decodeFc o0 o1)) := by
  refine ⟨fun _ w => ?_, fun h => absurd trivial h⟩
  simp only [Cat.frameControl, fc_version, fc_frameType, fc_security, fc_pending, fc_ack, fc_comp,
    fc_sup, fc_ie, fc_dst, fc_src, bind_ok, Writer.writeln, Writer.increaseIndent,
    Writer.decreaseIndent]
  simp [fcLines, shift]

/-- Reading `o` succeeds with a value as wanted. -/
theorem read_iff {α : Type} {o : Out α} (ho : NoErr o) {P : α → Prop} :
    (∃ a, o = .ok a ∧ P a) ↔ Returns o ∧ ∀ a, o = .ok a → P a := by
  cases o with
  | err => exact absurd rfl ho.ne
  | panic => simp
  | ok a => simp

/-- The lines for the sequence number. -/
def seqLines : Option Byte → List (Nat × Line)
  | none => []
  | some n => [(0, .text "Sequence Number"), (2, .sequenceNumber n)]

theorem shows_sequenceNumber (seq : Option Byte) :
    Shows (Cat.sequenceNumber seq) True (seqLines seq) := by
  cases seq with
  | none => exact shows_id
  | some n => exact ((shows_writeln (.sequenceNumber n)).indented.line (.text "Sequence Number"))

/-- The line for a PAN id. -/
def panLines (label : String) : Option (BitVec 16) → List (Nat × Line)
  | none => []
  | some id => [(0, .panId label id)]

/-- The line for an address. -/
def addrLines (label : String) : Option Address → List (Nat × Line)
  | none => []
  | some a => [(0, .address label a (decide (a = Address.BROADCAST)))]

theorem shows_panId (label : String) (id : Option (BitVec 16)) :
    Shows (fun w => .ok (Cat.panId label id w)) True (panLines label id) := by
  cases id with
  | none => exact shows_id
  | some id => exact shows_writeln _

theorem shows_address (label : String) (a : Option Address) :
    Shows (fun w => .ok (Cat.address label a w)) True (addrLines label a) := by
  cases a with
  | none => exact shows_id
  | some a => exact shows_writeln _

/-- The four reads of the addressing fields. -/
def AddressingReads (af : AddressingFields) (dp : Option (BitVec 16)) (d : Option Address)
    (sp : Option (BitVec 16)) (s : Option Address) : Prop :=
  af.dstPanId = .ok dp ∧ af.dstAddress = .ok d ∧ af.srcPanId = .ok sp ∧ af.srcAddress = .ok s

/-- The lines for the addressing fields. -/
def addressingLines (dp : Option (BitVec 16)) (d : Option Address) (sp : Option (BitVec 16))
    (s : Option Address) : List (Nat × Line) :=
  (0, .text "Addressing") :: shift 2 (panLines "dst pan id" dp ++ addrLines "dst addr" d ++
    panLines "src pan id" sp ++ addrLines "src addr" s)

theorem shows_addressing_none : Shows (Cat.addressing none) True [] := shows_id

theorem shows_addressing (af : AddressingFields) :
    (∃ dp d sp s, AddressingReads af dp d sp s ∧
      Shows (Cat.addressing (some af)) True (addressingLines dp d sp s)) ∨
    ((¬ ∃ dp d sp s, AddressingReads af dp d sp s) ∧ Shows (Cat.addressing (some af)) False []) := by
  have aux : ∀ x, x = Out.panic → Shows (fun w => (x : Out Writer) >>= Writer.decreaseIndent) False [] :=
    fun x h => ⟨fun h => h.elim, fun _ _ => by rw [h]; rfl⟩
  have ne := NoErr.dstPanId af
  have ne2 := NoErr.dstAddress af
  have ne3 := NoErr.srcPanId af
  have ne4 := NoErr.srcAddress af
  cases h1 : af.dstPanId with
  | err => exact absurd h1 ne.ne
  | panic => exact .inr ⟨fun ⟨_, _, _, _, h, _⟩ => by simp [h1] at h,
      ⟨fun h => h.elim, fun _ w => by simp [Cat.addressing, h1]⟩⟩
  | ok dp =>
  cases h2 : af.dstAddress with
  | err => exact absurd h2 ne2.ne
  | panic => exact .inr ⟨fun ⟨_, _, _, _, _, h, _⟩ => by simp [h2] at h,
      ⟨fun h => h.elim, fun _ w => by simp [Cat.addressing, h1, h2]⟩⟩
  | ok d =>
  cases h3 : af.srcPanId with
  | err => exact absurd h3 ne3.ne
  | panic => exact .inr ⟨fun ⟨_, _, _, _, _, _, h, _⟩ => by simp [h3] at h,
      ⟨fun h => h.elim, fun _ w => by simp [Cat.addressing, h1, h2, h3]⟩⟩
  | ok sp =>
  cases h4 : af.srcAddress with
  | err => exact absurd h4 ne4.ne
  | panic => exact .inr ⟨fun ⟨_, _, _, _, _, _, _, h⟩ => by simp [h4] at h,
      ⟨fun h => h.elim, fun _ w => by simp [Cat.addressing, h1, h2, h3, h4]⟩⟩
  | ok s =>
  refine .inl ⟨dp, d, sp, s, ⟨h1, h2, h3, h4⟩, ?_⟩
  have := ((((shows_panId "dst pan id" dp).seq (shows_address "dst addr" d)).seq
    (shows_panId "src pan id" sp)).seq (shows_address "src addr" s)).indented.line (.text "Addressing")
  refine ⟨fun _ w => ?_, fun h => absurd trivial h⟩
  rw [addressingLines, ← this.1 (by simp) w]
  simp [Cat.addressing, h1, h2, h3, h4]

/-- The lines for the security header (whose fields are not shown). -/
def securityLines : Option AuxSecHeader → List (Nat × Line)
  | none => []
  | some _ => [(0, .text "Auxiliary Security Header"), (2, .text "unimplementec")]

theorem shows_security (h : Option AuxSecHeader) : Shows (Cat.security h) True (securityLines h) := by
  cases h with
  | none => exact shows_id
  | some n => exact ((shows_writeln (.text "unimplementec")).indented.line _)

/-! ## Information elements -/

theorem Prints.const {f : Writer → Out Writer} {l : Line} {S : List (Nat × Line) → Prop}
    (hs : S [(0, l)]) (h : ∀ w, f w = .ok (w.writeln l)) : Prints f True S := by
  rw [funext h]; exact prints_writeln hs

theorem Prints.fail {f : Writer → Out Writer} {S : List (Nat × Line) → Prop} (h : ∀ w, f w = .panic) :
    Prints f False S := by
  rw [funext h]; exact ⟨_, shows_panic, fun h => h.elim⟩

theorem Prints.of_true {f : Writer → Out Writer} {S} (h : Prints f True S) {P : Prop} (hp : P) :
    Prints f P S := h.congr ⟨fun _ => hp, fun _ => trivial⟩

theorem Prints.of_false {f : Writer → Out Writer} {S} (h : Prints f False S) {P : Prop} (hp : ¬ P) :
    Prints f P S := h.congr ⟨fun h => h.elim, fun h => hp h⟩

/-- What is shown for the contents of a time correction: the values read, or `invalid`. -/
def TimeShown (c : Bytes) (l : Line) : Prop :=
  (TimeCorrection.new c = .err ∧ l = .text "invalid") ∨
  ∃ t n, TimeCorrection.new c = .ok c ∧ TimeCorrection.timeCorrection c = .ok t ∧
    TimeCorrection.nack c = .ok n ∧ l = .timeCorrection t n

/-- What is shown for a header element: its id and, unless it is a termination, its contents. -/
def HeaderShown (i : HeaderIe) (L : List (Nat × Line)) : Prop :=
  ∃ id, HeaderIe.elementId i = .ok id ∧
    ((id.isTermination = true ∧ L = [(2, .headerElement id)]) ∨
     (id.isTermination = false ∧ ∃ l, L = [(2, .headerElement id), (4, l)] ∧
      ((id ≠ .timeCorrection ∧ l = .text "unimplemented") ∨
       (id = .timeCorrection ∧ ∃ c, HeaderIe.content i = .ok c ∧ TimeShown c l))))

theorem prints_headerElement (i : HeaderIe) {id : HeaderElementId} {c : Bytes}
    (h1 : HeaderIe.elementId i = .ok id) (h2 : HeaderIe.content i = .ok c) :
    Prints (Cat.headerElement i) True (HeaderShown i) := by
  have e : Cat.headerElement i =
      fun w => Cat.headerBody id i (Writer.increaseIndent w) >>= Writer.decreaseIndent := by
    funext w; rw [Cat.headerElement, h1]; rfl
  rw [e]
  refine Prints.indented ?_
  unfold Cat.headerBody
  by_cases ht : id.isTermination = true
  · simp only [ht, if_true]; exact prints_writeln ⟨id, h1, .inl ⟨ht, rfl⟩⟩
  · simp only [ht, Bool.false_eq_true, if_false]
    refine Prints.line (f := fun w => Cat.headerContent id i (Writer.increaseIndent w) >>=
      Writer.decreaseIndent) (Prints.indented ?_)
    unfold Cat.headerContent
    split
    · rw [h2]
      simp only [bind_ok]
      by_cases hc : 2 ≤ c.length
      · obtain ⟨e, t, n, g1, g2, -⟩ := C20_reader_range c hc
        refine Prints.const (l := .timeCorrection t n) ?_ fun w => ?_
        · exact ⟨_, h1, .inr ⟨by simpa using ht, _, rfl, .inr ⟨rfl, c, h2, .inr ⟨t, n, e, g1, g2, rfl⟩⟩⟩⟩
        · simp [e, g1, g2]
      · refine Prints.const (l := .text "invalid") ?_ fun w => ?_
        · exact ⟨_, h1, .inr ⟨by simpa using ht, _, rfl,
            .inr ⟨rfl, c, h2, .inl ⟨C20_short c (Nat.lt_of_not_le hc), rfl⟩⟩⟩⟩
        · simp [C20_short c (Nat.lt_of_not_le hc)]
    · rename_i hne
      exact prints_writeln ⟨_, h1, .inr ⟨by simpa using ht, _, rfl, .inl ⟨fun h => hne h, rfl⟩⟩⟩

/-- What is shown for a link of a slotframe. -/
def LinkShown (k : LinkInformation) (L : List (Nat × Line)) : Prop :=
  ∃ ts co op, LinkInformation.timeslot k = .ok ts ∧ LinkInformation.channelOffset k = .ok co ∧
    LinkInformation.linkOptions k = .ok op ∧ L = [(0, .link ts co op)]

/-- What is shown for a slotframe: its handle, the number of its links, and below them the links. -/
def SlotframeShown (t : SlotframeDescriptor) (L : List (Nat × Line)) : Prop :=
  ∃ hd n it ls it' Ls, SlotframeDescriptor.handle t = .ok hd ∧ SlotframeDescriptor.links t = .ok n ∧
    SlotframeDescriptor.linkIter t = .ok it ∧ drain linkNext (it.data.length + 2) it = .ok (ls, it') ∧
    Each LinkShown ls Ls ∧ L = (0, .slotframe hd n) :: shift 2 Ls.flatten

/-- A descriptor is printed iff it has links. -/
theorem prints_slotframe (t : SlotframeDescriptor) (hd n it) (h1 : SlotframeDescriptor.handle t = .ok hd)
    (h3 : SlotframeDescriptor.links t = .ok n) (h4 : SlotframeDescriptor.linkIter t = .ok it)
    (h5 : n ≠ 0 → ∃ ls it'', drain linkNext (it.data.length + 2) it = .ok (ls, it'') ∧
          linkNext it'' = .ok (none, it'') ∧ ls.length = n.toNat ∧
          ∀ k ∈ ls, ∃ ts co op, LinkInformation.timeslot k = .ok ts ∧
            LinkInformation.channelOffset k = .ok co ∧ LinkInformation.linkOptions k = .ok op) :
    Prints (Cat.slotframe t) (SlotframeDescriptor.links t ≠ .ok 0) (SlotframeShown t) := by
  have e : Cat.slotframe t = fun w => (fun w => forIter linkNext link (it.data.length + 2) it
      (Writer.increaseIndent w) >>= Writer.decreaseIndent) (w.writeln (.slotframe hd n)) := by
    funext w; rw [Cat.slotframe, h1, h3, h4]; rfl
  rw [e]
  refine Prints.line (f := fun w => forIter linkNext link (it.data.length + 2) it
      (Writer.increaseIndent w) >>= Writer.decreaseIndent) (Prints.indented ?_)
  by_cases hn : n = 0
  · subst hn
    refine Prints.of_false (Prints.fail fun w => ?_) (by simp [h3])
    have h4' : 4 ≤ List.length t := by
      by_contra hc
      rw [SlotframeDescriptor.links, idx_ge (by omega)] at h3
      cases h3
    obtain ⟨it', g1, g2, g3, -⟩ := C23_no_links_panic t h4' h3
    rw [h4] at g1; cases g1
    rw [forIter_eq _ _ _ _ _ _ g2]
    simp [forVec, link, g3]
  · obtain ⟨ls, it'', g1, -, -, g2⟩ := h5 hn
    refine Prints.of_true ?_ (by rw [h3]; rintro h; cases h; exact hn rfl)
    refine ((prints_forIter g1 (fun _ => True) LinkShown fun k hk => ?_).congr (by simp)).mono ?_
    · obtain ⟨ts, co, op, k1, k2, k3⟩ := g2 k hk
      exact Prints.const (l := .link ts co op) ⟨ts, co, op, k1, k2, k3, rfl⟩
        fun w => by simp [link, k1, k2, k3]
    · rintro _ ⟨Ls, hL, rfl⟩
      exact ⟨hd, n, it, ls, it'', Ls, h1, h3, h4, g1, hL, rfl⟩

/-- What is shown for the contents `c` of a nested element: the values read, or `invalid`. -/
def NestedShown (id : NestedSubId) (c : Bytes) (L : List (Nat × Line)) : Prop :=
  match id with
  | .short .tschSynchronization =>
    (TschSynchronization.new c = .err ∧ L = [(0, .text "invalid")]) ∨
    ∃ asn jm, TschSynchronization.new c = .ok c ∧ TschSynchronization.absoluteSlotNumber c = .ok asn ∧
      TschSynchronization.joinMetric c = .ok jm ∧ L = [(0, .synchronization asn jm)]
  | .short .tschTimeslot =>
    (TschTimeslot.new c = .err ∧ L = [(0, .text "invalid")]) ∨
    ∃ id, TschTimeslot.new c = .ok c ∧ TschTimeslot.id c = .ok id ∧
      ((c.length = 1 ∧ L = [(0, .timeslot id)]) ∨
       (c.length ≠ 1 ∧ ∃ t, TschTimeslot.timeslotTimings c = .ok t ∧
        L = [(0, .timeslot id), (0, .timings t)]))
  | .short .tschSlotframeAndLink =>
    (TschSlotframeAndLink.new c = .err ∧ L = [(0, .text "invalid")]) ∨
    ∃ n ds e Ls, TschSlotframeAndLink.new c = .ok c ∧
      TschSlotframeAndLink.numberOfSlotframes c = .ok n ∧
      TschSlotframeAndLink.descriptors c = .ok (ds, e) ∧ Each SlotframeShown ds Ls ∧
      L = (0, .slotframes n) :: Ls.flatten
  | .long .channelHopping =>
    (ChannelHopping.new c = .err ∧ L = [(0, .text "invalid")]) ∨
    ∃ id, ChannelHopping.new c = .ok c ∧ ChannelHopping.hoppingSequenceId c = .ok id ∧
      L = [(0, .channelHopping id)]
  | _ => L = [(0, .text "unimplemented")]

/-- What is shown for a nested element. -/
def NestedElementShown (i : NestedIe) (L : List (Nat × Line)) : Prop :=
  ∃ id c M, NestedIe.subId i = .ok id ∧ NestedIe.content i = .ok c ∧ NestedShown id c M ∧
    L = (2, .nestedElement id) :: shift 4 M

/-- A nested element is printed iff it is not hazardous. -/
theorem prints_nestedElement (i : NestedIe) {id : NestedSubId} {c : Bytes}
    (h1 : NestedIe.subId i = .ok id) (h2 : NestedIe.content i = .ok c) :
    Prints (Cat.nestedElement i) (¬ Hazardous i) (NestedElementShown i) := by
  have e : Cat.nestedElement i =
      fun w => Cat.nestedBody id i (Writer.increaseIndent w) >>= Writer.decreaseIndent := by
    funext w; rw [Cat.nestedElement, h1]; rfl
  rw [e]
  refine Prints.indented (Prints.line (f := fun w => Cat.nestedContent id i (Writer.increaseIndent w) >>=
      Writer.decreaseIndent) (Prints.indented ?_))
  refine Prints.mono (S := NestedShown id c) ?_ fun M hM => ⟨id, c, M, h1, h2, hM, by
    rw [← shift_shift 2 2]; rfl⟩
  have hz : ∀ x, id = x → x ≠ .short .tschTimeslot → x ≠ .short .tschSlotframeAndLink →
      ¬ Hazardous i := by
    rintro x rfl n1 n2 (⟨h, -⟩ | ⟨h, -⟩) <;> rw [h1] at h <;> cases h <;> contradiction
  unfold Cat.nestedContent
  split
  · refine Prints.of_true ?_ (hz _ rfl (by decide) (by decide))
    rw [h2]
    simp only [bind_ok]
    by_cases h6 : 6 ≤ c.length
    · match c, h6 with
      | b0 :: b1 :: b2 :: b3 :: b4 :: b5 :: l, _ =>
        obtain ⟨e1, e2, a, e3, -⟩ := C21_read b0 b1 b2 b3 b4 b5 l
        refine Prints.const (l := .synchronization a b5) (.inr ⟨a, b5, e1, e3, e2, rfl⟩) fun w => ?_
        simp [e1, e2, e3]
    · have e : TschSynchronization.new c = .err := by simp [TschSynchronization.new, h6]
      exact Prints.const (l := .text "invalid") (.inl ⟨e, rfl⟩) fun w => by simp [e]
  · rw [h2]
    simp only [bind_ok]
    have hnew : TschTimeslot.new c = .ok c ∨ TschTimeslot.new c = .err := by
      cases c with
      | nil => simp [TschTimeslot.new]
      | cons x c =>
        simp only [TschTimeslot.new, TschTimeslot.id]
        simp only [List.length_cons, idx_zero, bind_ok]
        split
        · simp
        · split
          · simp
          · split <;> simp
    rcases hnew with hn | hn
    · have hid : ∃ x, TschTimeslot.id c = .ok x := by
        cases c with
        | nil => simp [TschTimeslot.new] at hn
        | cons x c => exact ⟨x, by simp [TschTimeslot.id]⟩
      obtain ⟨x, hx⟩ := hid
      have hiff : Hazardous i ↔ c.length = 26 ∧ c.head? ≠ some 0 := by
        constructor
        · rintro (⟨-, d, k1, k2⟩ | ⟨h, -⟩)
          · rw [h2] at k1; cases k1; exact k2
          · rw [h1] at h; cases h
        · exact fun h => .inl ⟨h1, c, h2, h⟩
      simp only [hn, toOption, bind_ok, hx]
      refine Prints.line (f := fun w => if TschTimeslot.hasTimeslotTimings c then do
        let t ← TschTimeslot.timeslotTimings c
        .ok (w.writeln (.timings t)) else .ok w) ?_
      have hlen : c.length ≠ 0 := by
        intro h0
        simp [TschTimeslot.new, h0] at hn
      by_cases ht : TschTimeslot.hasTimeslotTimings c = true
      · have hl1 : c.length ≠ 1 := by
          simp only [TschTimeslot.hasTimeslotTimings, decide_eq_true_eq] at ht
          omega
        simp only [ht, if_true]
        have := C22_read_panics_iff c hn
        cases h : TschTimeslot.timeslotTimings c with
        | err => exact absurd h (NoErr.timings c).ne
        | panic =>
          rw [h] at this
          exact Prints.of_false (Prints.fail fun _ => rfl) (by rw [hiff]; simpa using this.mp rfl)
        | ok t =>
          rw [h] at this
          exact Prints.of_true (prints_writeln (l := .timings t)
            (.inr ⟨x, hn, hx, .inr ⟨hl1, t, h, rfl⟩⟩)) (by rw [hiff, ← this]; simp)
      · simp only [ht, Bool.false_eq_true, if_false]
        simp only [TschTimeslot.hasTimeslotTimings, decide_eq_true_eq] at ht
        refine Prints.of_true ⟨_, shows_id, fun _ => .inr ⟨x, hn, hx, .inl ⟨by omega, rfl⟩⟩⟩ ?_
        rw [hiff]
        rintro ⟨h, -⟩
        omega
    · refine Prints.of_true (Prints.const (l := .text "invalid") (.inl ⟨hn, rfl⟩)
        fun w => by simp [hn]) ?_
      rintro (⟨-, d, k1, k2, k3⟩ | ⟨h, -⟩)
      · rw [h2] at k1; cases k1
        cases c with
        | nil => simp at k2
        | cons x c =>
          have hx : x ≠ 0 := fun h => k3 (by simp [h])
          simp only [TschTimeslot.new, TschTimeslot.id, idx_zero, bind_ok, if_neg hx, k2] at hn
          simp at hn
      · rw [h1] at h; cases h
  · rw [h2]
    simp only [bind_ok]
    by_cases hc : c = []
    · refine Prints.of_true (Prints.const (l := .text "invalid")
        (.inl ⟨by simp [hc, TschSlotframeAndLink.new], rfl⟩) fun w => by
        simp [hc, TschSlotframeAndLink.new]) ?_
      rintro (⟨h, -⟩ | ⟨-, d, ds, e, k1, k2, -⟩)
      · rw [h1] at h; cases h
      · rw [h2] at k1; cases k1
        rw [hc] at k2
        simp [TschSlotframeAndLink.descriptors, TschSlotframeAndLink.descriptorIter,
          TschSlotframeAndLink.numberOfSlotframes] at k2
    · obtain ⟨e, ds, it, g1, -, g2⟩ := C23_reads_safe c hc
      have hiff : Hazardous i ↔ ∃ t ∈ ds, SlotframeDescriptor.links t = .ok 0 := by
        constructor
        · rintro (⟨h, -⟩ | ⟨-, d, ds', e', k1, k2, k3⟩)
          · rw [h1] at h; cases h
          · rw [h2] at k1; cases k1
            rw [g1] at k2; cases k2; exact k3
        · exact fun h => .inr ⟨h1, c, ds, it, h2, g1, h⟩
      have g1' := g1
      rw [TschSlotframeAndLink.descriptors] at g1'
      obtain ⟨it0, k1, k2⟩ := bind_eq_ok.mp g1'
      have hnum : ∃ n, TschSlotframeAndLink.numberOfSlotframes c = .ok n := by
        obtain ⟨n, hn, -⟩ := bind_eq_ok.mp k1
        exact ⟨n, hn⟩
      obtain ⟨n, hn⟩ := hnum
      simp only [e, toOption, bind_ok, hn, k1]
      refine Prints.line (f := fun w => forIter slotframeNext slotframe (List.length c + 1) it0 w) ?_
      refine ((prints_forIter k2 (fun t => SlotframeDescriptor.links t ≠ .ok 0) SlotframeShown
        fun t ht => ?_).congr ?_).mono ?_
      · obtain ⟨hd, sz, n, it', m1, m2, m3, m4, m5⟩ := g2 t ht
        exact prints_slotframe t hd n it' m1 m3 m4 m5
      · rw [hiff]; simp
      · rintro _ ⟨Ls, hL, rfl⟩
        exact .inr ⟨n, ds, it, Ls, e, hn, g1, hL, rfl⟩
  · refine Prints.of_true ?_ (hz _ rfl (by decide) (by decide))
    rw [h2]
    simp only [bind_ok]
    cases c with
    | nil =>
      exact Prints.const (l := .text "invalid") (.inl ⟨by simp [ChannelHopping.new], rfl⟩)
        fun w => by simp [ChannelHopping.new]
    | cons x c =>
      exact Prints.const (l := .channelHopping x) (.inr ⟨x, by simp [ChannelHopping.new],
        by simp [ChannelHopping.hoppingSequenceId], rfl⟩) fun w => by
        simp [ChannelHopping.new, ChannelHopping.hoppingSequenceId]
  · rename_i g1 g2 g3 g4
    refine Prints.of_true (prints_writeln ?_) (hz _ rfl (by rintro rfl; exact g2 rfl)
      (by rintro rfl; exact g3 rfl))
    unfold NestedShown
    split
    · exact (g1 rfl).elim
    · exact (g2 rfl).elim
    · exact (g3 rfl).elim
    · exact (g4 rfl).elim
    · rfl

/-- The nested elements inside the MLME elements among the payload elements. -/
def NestedOf (ie : InformationElements) (c : NestedIe) : Prop :=
  ∃ ps e p q cs e', InformationElements.payloadDrain ie = .ok (ps, e) ∧ p ∈ ps ∧
    PayloadIe.groupId p = .ok .mlme ∧ PayloadIe.content p = .ok q ∧
    drain nestedNext (q.length + 1) (nestedIter q) = .ok (cs, e') ∧ c ∈ cs

/-- Likewise of one payload element. -/
def NestedOfOne (p : PayloadIe) (c : NestedIe) : Prop :=
  ∃ q cs e', PayloadIe.groupId p = .ok .mlme ∧ PayloadIe.content p = .ok q ∧
    drain nestedNext (q.length + 1) (nestedIter q) = .ok (cs, e') ∧ c ∈ cs

/-- What is shown for a payload element: the nested elements of an MLME element, else the group. -/
def PayloadShown (p : PayloadIe) (L : List (Nat × Line)) : Prop :=
  ∃ g, PayloadIe.groupId p = .ok g ∧
    ((g ≠ .mlme ∧ L = [(2, .otherGroup g)]) ∨
     (g = .mlme ∧ ∃ q cs e Ls, PayloadIe.content p = .ok q ∧
      drain nestedNext (q.length + 1) (nestedIter q) = .ok (cs, e) ∧ Each NestedElementShown cs Ls ∧
      L = (2, .text "MLME") :: shift 2 Ls.flatten))

theorem prints_payloadElement (p : PayloadIe) {g : PayloadGroupId} {q : Bytes}
    (h1 : PayloadIe.groupId p = .ok g) (h2 : PayloadIe.content p = .ok q) :
    Prints (Cat.payloadElement p) (∀ c, NestedOfOne p c → ¬ Hazardous c) (PayloadShown p) := by
  have e : Cat.payloadElement p =
      fun w => Cat.payloadBody g p (Writer.increaseIndent w) >>= Writer.decreaseIndent := by
    funext w; rw [Cat.payloadElement, h1]; rfl
  rw [e]
  refine Prints.indented ?_
  by_cases hg : g = .mlme
  · subst hg
    obtain ⟨cs, e', rest, m1, -, -, -, m2⟩ := C19_nested_iteration q
    have hd : (nestedIter q).data = q := rfl
    have e2 : Cat.payloadBody .mlme p = fun w => (fun w => forIter nestedNext nestedElement
        (q.length + 1) (nestedIter q) w) (w.writeln (.text "MLME")) := by
      funext w
      rw [Cat.payloadBody, C19_nested_only_mlme p .mlme q h1 h2]
      rfl
    rw [e2]
    refine Prints.line (f := fun w => forIter nestedNext nestedElement
        (q.length + 1) (nestedIter q) w) ?_
    refine ((prints_forIter m1 (fun c => ¬ Hazardous c) NestedElementShown fun c hc => ?_).congr ?_).mono ?_
    · obtain ⟨-, n1, -, n2⟩ := m2 c hc
      cases hs : NestedIe.subId c with
      | panic => rw [hs] at n2; simp at n2
      | err => exact absurd hs (NoErr.field ..).ne
      | ok id => exact prints_nestedElement c hs n1
    · constructor
      · rintro h c ⟨q', cs', e'', -, k2, k3, k4⟩
        rw [h2] at k2; cases k2
        rw [m1] at k3; cases k3
        exact h c k4
      · exact fun h c hc => h c ⟨q, cs, e', h1, h2, m1, hc⟩
    · rintro _ ⟨Ls, hL, rfl⟩
      exact ⟨.mlme, h1, .inr ⟨rfl, q, cs, e', Ls, h2, m1, hL, rfl⟩⟩
  · refine Prints.of_true (Prints.const (l := .otherGroup g) ⟨g, h1, .inl ⟨hg, rfl⟩⟩ fun w => ?_) ?_
    · cases g <;> first | rfl | contradiction
    · rintro c ⟨q', cs', e'', k1, -⟩
      rw [h1] at k1; cases k1; contradiction

/-- What is shown for a list of elements: nothing if it is empty, else a heading and the elements. -/
def GroupShown {α : Type} (heading : String) (R : α → List (Nat × Line) → Prop) (l : List α)
    (L : List (Nat × Line)) : Prop :=
  (l = [] ∧ L = []) ∨
  (l ≠ [] ∧ ∃ Ls, Each R l Ls ∧ L = (2, .text heading) :: shift 2 Ls.flatten)

theorem prints_elementGroup {α : Type} (heading : String) (body : α → Writer → Out Writer)
    (P : α → Prop) (R : α → List (Nat × Line) → Prop) (l : List α)
    (h : ∀ a ∈ l, Prints (body a) (P a) (R a)) :
    Prints (Cat.elementGroup heading body l) (∀ a ∈ l, P a) (GroupShown heading R l) := by
  unfold Cat.elementGroup
  cases l with
  | nil => exact ⟨_, shows_id.congr (by simp), fun _ => .inl ⟨rfl, rfl⟩⟩
  | cons a l =>
    simp only [List.isEmpty_cons, Bool.false_eq_true, if_false]
    refine Prints.indented (f := fun w => forVec body (a :: l) (w.writeln (.text heading)))
      (Prints.line ((prints_forVec body P R _ h).mono ?_))
    rintro _ ⟨Ls, hL, rfl⟩
    exact .inr ⟨by simp, Ls, hL, rfl⟩

theorem exists_of_map {α β γ : Type} {l : List α} {f : α → Out β} {m : List γ} {g : γ → β}
    (h : l.map f = m.map (fun c => .ok (g c))) : ∀ i ∈ l, ∃ x, f i = .ok x := by
  intro i hi
  have : f i ∈ m.map (fun c => Out.ok (g c)) := h ▸ List.mem_map_of_mem hi
  obtain ⟨c, -, e⟩ := List.mem_map.mp this
  exact ⟨_, e.symm⟩

/-- What is shown for the information elements of a frame: a heading and the elements the two
iterators return. -/
def ElementsShown : Option InformationElements → List (Nat × Line) → Prop
  | none, L => L = []
  | some ie, L => ∃ hi he pi pe M N, InformationElements.headerDrain ie = .ok (hi, he) ∧
      InformationElements.payloadDrain ie = .ok (pi, pe) ∧
      GroupShown "Header Information Elements" HeaderShown hi M ∧
      GroupShown "Payload Information Elements" PayloadShown pi N ∧
      L = (0, .text "Information Elements") :: (M ++ N)

/-- Information elements that passed the check are printed iff none is hazardous. -/
theorem prints_informationElements (s : Bytes) (ie : InformationElements)
    (h : InformationElements.new s = .ok ie) :
    Prints (Cat.informationElements (some ie)) (∀ c, NestedOf ie c → ¬ Hazardous c)
      (ElementsShown (some ie)) := by
  obtain ⟨-, hs, ps, rest, hi, pi, e1, e2, -, -, -, -, d1, -, d2, -, r1, r2, -, -⟩ := C15_partition _ _ h
  have e : Cat.informationElements (some ie) = fun w =>
      (fun w => Cat.elementGroup "Header Information Elements" Cat.headerElement hi w >>= fun w =>
        Cat.elementGroup "Payload Information Elements" Cat.payloadElement pi w)
      (w.writeln (.text "Information Elements")) := by
    funext w
    rw [Cat.informationElements, d1, d2]
    rfl
  rw [e]
  have a1 := prints_elementGroup "Header Information Elements" Cat.headerElement (fun _ => True)
    HeaderShown hi
    fun i hx => by
      obtain ⟨id, k1⟩ := exists_of_map r1.2.2 i hx
      obtain ⟨c, k2⟩ := exists_of_map r1.1 i hx
      exact prints_headerElement i k1 k2
  have a2 := prints_elementGroup "Payload Information Elements" Cat.payloadElement
    (fun p => ∀ c, NestedOfOne p c → ¬ Hazardous c) PayloadShown pi
    fun i hx => by
      obtain ⟨g, k1⟩ := exists_of_map r2.2.2 i hx
      obtain ⟨c, k2⟩ := exists_of_map r2.1 i hx
      exact prints_payloadElement i k1 k2
  refine Prints.line (f := fun w => Cat.elementGroup "Header Information Elements" Cat.headerElement hi w >>=
    fun w => Cat.elementGroup "Payload Information Elements" Cat.payloadElement pi w)
    (((a1.seq a2).congr ?_).mono ?_)
  swap
  · rintro _ ⟨M, N, hM, hN, rfl⟩
    exact ⟨hi, e1, pi, e2, M, N, d1, d2, hM, hN, rfl⟩
  constructor
  · rintro ⟨-, g⟩ c ⟨ps', e, p, q, cs, e', k1, k2, k3⟩
    rw [d2] at k1; cases k1
    exact g p k2 c ⟨q, cs, e', k3⟩
  · intro g
    refine ⟨by simp, ?_⟩
    rintro p hp c ⟨q, cs, e', k⟩
    exact g c ⟨pi, e2, p, q, cs, e', d2, hp, k⟩

/-! ## Whole frames -/

/-- The frame's accessors, and those of its addressing fields, do not panic, and no nested element is
hazardous. -/
def Decodable (f : Frame) : Prop :=
  Returns f.frameControl ∧ Returns f.sequenceNumber ∧ Returns f.addressing ∧
  (∀ af, f.addressing = .ok (some af) →
    Returns af.dstPanId ∧ Returns af.dstAddress ∧ Returns af.srcPanId ∧ Returns af.srcAddress) ∧
  Returns f.auxSecHeader ∧ Returns f.informationElements ∧
  (∀ ie c, f.informationElements = .ok (some ie) → NestedOf ie c → ¬ Hazardous c) ∧
  Returns f.payload

/-- The lines for the payload. -/
def payloadLines : Option Bytes → List (Nat × Line)
  | none => []
  | some p => [(0, .text "Payload"), (2, .payload p)]

/-- The lines shown for a frame are those of the values its accessors return, in this order. -/
def Describes (f : Frame) (L : List (Nat × Line)) : Prop :=
  ∃ o0 o1 seq aux ie p A E,
    f.frameControl = .ok [o0, o1] ∧ f.sequenceNumber = .ok seq ∧ f.auxSecHeader = .ok aux ∧
    f.informationElements = .ok ie ∧ f.payload = .ok p ∧
    ((f.addressing = .ok none ∧ A = []) ∨ ∃ af dp d sp s, f.addressing = .ok (some af) ∧
      AddressingReads af dp d sp s ∧ A = addressingLines dp d sp s) ∧
    ElementsShown ie E ∧
    L = fcLines (decodeFc o0 o1) ++ seqLines seq ++ A ++ securityLines aux ++ E ++ payloadLines p

theorem catParse_eq {b : Bytes} {f : Frame} (hf : Frame.new b = .ok f) {o0 o1 : Byte} {seq : Option Byte}
    {af : Option AddressingFields} {aux : Option AuxSecHeader} {ie : Option InformationElements}
    (h1 : f.frameControl = .ok [o0, o1]) (h2 : f.sequenceNumber = .ok seq) (h3 : f.addressing = .ok af)
    (h4 : f.auxSecHeader = .ok aux) (h5 : f.informationElements = .ok ie)
    {A E : List (Nat × Line)} {P Q : Prop} (hA : Shows (Cat.addressing af) P A)
    (hE : Shows (Cat.informationElements ie) Q E) :
    (P ∧ Q → Cat.parse b = (f.payload >>= fun p => .ok (fcLines (decodeFc o0 o1) ++ seqLines seq ++ A ++
      securityLines aux ++ E ++ payloadLines p))) ∧ (¬ (P ∧ Q) → Cat.parse b = .panic) := by
  have key := (((shows_frameControl o0 o1).seq (shows_sequenceNumber seq)).seq
    (hA.seq (shows_security aux))).seq hE
  have e : Cat.parse b = (((Cat.frameControl [o0, o1] ⟨[], 0⟩ >>= Cat.sequenceNumber seq) >>= fun w =>
      Cat.addressing af w >>= Cat.security aux) >>= Cat.informationElements ie) >>= fun w =>
      f.payload >>= fun p => .ok (Cat.payload p w).lines := by
    simp only [Cat.parse, hf, unwrap, h1, h2, h3, h4, h5, bind_ok, bind_assoc]
  rw [e]
  constructor
  · rintro ⟨hp, hq⟩
    have := key.1 ⟨⟨⟨trivial, trivial⟩, hp, trivial⟩, hq⟩ ⟨[], 0⟩
    simp only at this
    rw [this]
    simp only [bind_ok, List.nil_append, shift_zero]
    congr 1
    funext p
    cases p <;> simp [Cat.payload, payloadLines, Writer.writeln, Writer.increaseIndent]
  · intro h
    have := key.2 (fun g => h ⟨g.1.2.1, g.2⟩) ⟨[], 0⟩
    simp only at this
    rw [this]; rfl

/-- Decoding a frame whose accessors return or panic: the frame is described iff decodable. -/
theorem catParse_frame {b : Bytes} {f : Frame} (hf : Frame.new b = .ok f) {o0 o1 : Byte}
    (h1 : f.frameControl = .ok [o0, o1]) (n2 : NoErr f.sequenceNumber) (n3 : NoErr f.addressing)
    (n4 : NoErr f.auxSecHeader) (n5 : NoErr f.informationElements) (n6 : NoErr f.payload)
    (hie : ∀ ie, f.informationElements = .ok (some ie) → ∃ s, InformationElements.new s = .ok ie) :
    (Decodable f ∧ ∃ L, Cat.parse b = .ok L ∧ Describes f L) ∨
    (¬ Decodable f ∧ Cat.parse b = .panic) := by
  cases h2 : f.sequenceNumber with
  | err => exact absurd h2 n2.ne
  | panic =>
    refine .inr ⟨fun h => by simpa [h2] using h.2.1, ?_⟩
    obtain ⟨_, hs⟩ := shows_frameControl o0 o1
    have := (shows_frameControl o0 o1).1 trivial ⟨[], 0⟩
    simp only [Cat.parse, hf, unwrap, h1, bind_ok, this, h2, bind_panic]
  | ok seq =>
  have p1 := (shows_frameControl o0 o1).1 trivial ⟨[], 0⟩
  cases h3 : f.addressing with
  | err => exact absurd h3 n3.ne
  | panic =>
    refine .inr ⟨fun h => by simpa [h3] using h.2.2.1, ?_⟩
    have p2 := (shows_sequenceNumber seq).1 trivial
    simp only [Cat.parse, hf, unwrap, h1, bind_ok, p1, h2, p2, h3, bind_panic]
  | ok af =>
  have hA : ∃ (P : Prop) (A : List (Nat × Line)), Shows (Cat.addressing af) P A ∧
      (P ↔ ∀ af, f.addressing = .ok (some af) →
        Returns af.dstPanId ∧ Returns af.dstAddress ∧ Returns af.srcPanId ∧ Returns af.srcAddress) ∧
      (P → (f.addressing = .ok none ∧ A = []) ∨ ∃ af dp d sp s, f.addressing = .ok (some af) ∧
        AddressingReads af dp d sp s ∧ A = addressingLines dp d sp s) := by
    cases af with
    | none => exact ⟨True, [], shows_addressing_none, by simp [h3], fun _ => .inl ⟨h3, rfl⟩⟩
    | some af =>
      rcases shows_addressing af with ⟨dp, d, sp, s, hr, hs⟩ | ⟨hr, hs⟩
      · refine ⟨True, _, hs, ?_, fun _ => .inr ⟨af, dp, d, sp, s, h3, hr, rfl⟩⟩
        simp only [h3, true_iff]
        rintro _ ⟨⟩
        obtain ⟨g1, g2, g3, g4⟩ := hr
        simp [g1, g2, g3, g4]
      · refine ⟨False, _, hs, ?_, fun h => h.elim⟩
        simp only [h3, false_iff]
        intro h
        obtain ⟨g1, g2, g3, g4⟩ := h af rfl
        have r : ∀ {α : Type} (o : Out α), NoErr o → Returns o → ∃ a, o = .ok a := by
          intro α o n r
          cases o with
          | ok a => exact ⟨a, rfl⟩
          | err => exact absurd rfl n.ne
          | panic => simp at r
        obtain ⟨dp, k1⟩ := r _ (NoErr.dstPanId af) g1
        obtain ⟨d, k2⟩ := r _ (NoErr.dstAddress af) g2
        obtain ⟨sp, k3⟩ := r _ (NoErr.srcPanId af) g3
        obtain ⟨s, k4⟩ := r _ (NoErr.srcAddress af) g4
        exact hr ⟨dp, d, sp, s, k1, k2, k3, k4⟩
  obtain ⟨P, A, hA, hP, hPA⟩ := hA
  by_cases hp : P
  swap
  · refine .inr ⟨fun h => hp (hP.mpr h.2.2.2.1), ?_⟩
    have p2 := (shows_sequenceNumber seq).1 trivial
    simp only [Cat.parse, hf, unwrap, h1, bind_ok, p1, h2, p2, h3, hA.2 hp, bind_panic]
  cases h4 : f.auxSecHeader with
  | err => exact absurd h4 n4.ne
  | panic =>
    refine .inr ⟨fun h => by simpa [h4] using h.2.2.2.2.1, ?_⟩
    have p2 := (shows_sequenceNumber seq).1 trivial
    simp only [Cat.parse, hf, unwrap, h1, bind_ok, p1, h2, p2, h3, hA.1 hp, h4, bind_panic]
  | ok aux =>
  cases h5 : f.informationElements with
  | err => exact absurd h5 n5.ne
  | panic =>
    refine .inr ⟨fun h => by simpa [h5] using h.2.2.2.2.2.1, ?_⟩
    have p2 := (shows_sequenceNumber seq).1 trivial
    have p3 := (shows_security aux).1 trivial
    simp only [Cat.parse, hf, unwrap, h1, bind_ok, p1, h2, p2, h3, hA.1 hp, h4, p3, h5, bind_panic]
  | ok ie =>
  have hE : ∃ E, Shows (Cat.informationElements ie)
      (∀ ie c, f.informationElements = .ok (some ie) → NestedOf ie c → ¬ Hazardous c) E ∧
      ((∀ ie c, f.informationElements = .ok (some ie) → NestedOf ie c → ¬ Hazardous c) →
        ElementsShown ie E) := by
    cases ie with
    | none => exact ⟨[], shows_id.congr (by simp [h5]), fun _ => rfl⟩
    | some ie =>
      obtain ⟨s, hs⟩ := hie ie h5
      refine (prints_informationElements s ie hs).congr ?_
      rw [h5]
      constructor
      · rintro h _ c ⟨⟩; exact h c
      · exact fun h c => h ie c rfl
  obtain ⟨E, hE, hE'⟩ := hE
  have key := catParse_eq hf h1 h2 h3 h4 h5 hA hE
  by_cases hq : ∀ ie c, f.informationElements = .ok (some ie) → NestedOf ie c → ¬ Hazardous c
  swap
  · exact .inr ⟨fun h => hq h.2.2.2.2.2.2.1, key.2 fun h => hq h.2⟩
  have key := key.1 ⟨hp, hq⟩
  cases h6 : f.payload with
  | err => exact absurd h6 n6.ne
  | panic =>
    exact .inr ⟨fun h => by simpa [h6] using h.2.2.2.2.2.2.2, by rw [key, h6]; rfl⟩
  | ok p =>
    rw [h6] at key
    refine .inl ⟨⟨by simp [h1], by simp [h2], by simp [h3], hP.mp hp, by simp [h4], by simp [h5], hq,
      by simp [h6]⟩, _, key, o0, o1, seq, aux, ie, p, A, E, h1, h2, h4, h5, h6, hPA hp, hE' hq, rfl⟩

/-- `Frame::new` returns frames with a frame control field whose accessors never return `Err`. -/
theorem frame_facts {b : Bytes} {f : Frame} (hf : Frame.new b = .ok f) :
    (∃ o0 o1, f.frameControl = .ok [o0, o1]) ∧ NoErr f.sequenceNumber ∧ NoErr f.addressing ∧
    NoErr f.auxSecHeader ∧ NoErr f.informationElements ∧ NoErr f.payload ∧
    (∀ ie, f.informationElements = .ok (some ie) → ∃ s, InformationElements.new s = .ok ie) ∧
    (f = .ack b ∧ b.length = 3 ∨ f = .enhancedAck b ∨ f = .enhancedBeacon b ∧ Acceptable b ∨
      f = .data b ∧ Acceptable b) := by
  have split : ∀ f : Frame, (f = .enhancedBeacon b ∨ f = .data b) → Acceptable b →
      (∃ o0 o1, f.frameControl = .ok [o0, o1]) ∧ NoErr f.sequenceNumber ∧ NoErr f.addressing ∧
      NoErr f.auxSecHeader ∧ NoErr f.informationElements ∧ NoErr f.payload ∧
      (∀ ie, f.informationElements = .ok (some ie) → ∃ s, InformationElements.new s = .ok ie) := by
    intro f hf ha
    obtain ⟨o0, o1, seq, A, I, R, af, ie, -, h1, h2, -, h3, hA, -, h4, h5, hI, -, -, h6⟩ := splits_data b ha
    have e2 : beaconApi = dataApi := rfl
    have g : f.frameControl = .ok [o0, o1] ∧ f.sequenceNumber = .ok seq ∧ f.addressing = .ok af ∧
        f.auxSecHeader = .ok none ∧ f.informationElements = .ok ie ∧
        f.payload = .ok (if R = [] then none else some R) := by
      rcases hf with rfl | rfl <;> exact ⟨h1, h2, h3, h4, h5, h6⟩
    obtain ⟨g1, g2, g3, g4, g5, g6⟩ := g
    refine ⟨⟨o0, o1, g1⟩, ⟨by simp [g2]⟩, ⟨by simp [g3]⟩, ⟨by simp [g4]⟩, ⟨by simp [g5]⟩, ⟨by simp [g6]⟩,
      fun ie' e => ?_⟩
    rw [g5] at e; cases e
    exact ⟨_, hI.2.1⟩
  rcases C14_dispatch_partial b with ⟨-, h⟩ | ⟨o0, o1, l, hb, h⟩
  · rw [h] at hf; cases hf
  have hd : ∀ o, designated b (decodeFc o0 o1).frameType (decodeFc o0 o1).frameVersion = o →
      match o with
      | none => True
      | some (.beacon _) => True
      | some g => g = .ack b ∨ g = .enhancedAck b ∨ g = .enhancedBeacon b ∨ g = .data b := by
    intro o ho
    cases h1 : (decodeFc o0 o1).frameType <;> cases h2 : (decodeFc o0 o1).frameVersion <;>
      rw [h1, h2] at ho <;> subst ho <;> simp [designated]
  split at h
  · rw [h] at hf; cases hf
  · rw [h] at hf; cases hf
  · rcases h with ⟨hl, h⟩ | ⟨-, h⟩ <;> rw [h] at hf <;> cases hf
    refine ⟨⟨o0, o1, ?_⟩, ?_, ⟨by simp [Frame.addressing]⟩, ⟨by simp [Frame.auxSecHeader]⟩,
      ⟨by simp [Frame.informationElements]⟩, ⟨by simp [Frame.payload]⟩, by simp [Frame.informationElements],
      .inl ⟨rfl, hl⟩⟩
    · subst hb; simp [Frame.frameControl, Ack.frameControl, sliceTo, FrameControl.new]
    · exact (NoErr.idx ..).bind fun _ _ => NoErr.ok _
  · rw [h] at hf; cases hf
    refine ⟨⟨o0, o1, ?_⟩, NoErr.ackSeq b, NoErr.ackAddressing b, NoErr.ackAux b, NoErr.ackElements b,
      NoErr.ackPayload b, fun ie h => ack_elements_new h, .inr (.inl rfl)⟩
    subst hb; simp [Frame.frameControl, EnhancedAck.frameControl, sliceTo, FrameControl.new]
  · rcases h with ⟨ha, h⟩ | ⟨-, h⟩ <;> rw [h] at hf <;> cases hf
    obtain ⟨g1, g2, g3, g4, g5, g6, g7⟩ := split _ (.inl rfl) ha
    exact ⟨g1, g2, g3, g4, g5, g6, g7, .inr (.inr (.inl ⟨rfl, ha⟩))⟩
  · rcases h with ⟨ha, h⟩ | ⟨-, h⟩ <;> rw [h] at hf <;> cases hf
    obtain ⟨g1, g2, g3, g4, g5, g6, g7⟩ := split _ (.inr rfl) ha
    exact ⟨g1, g2, g3, g4, g5, g6, g7, .inr (.inr (.inr ⟨rfl, ha⟩))⟩

/-! ## C54 -/

/-- **C54**, exactly when it panics.  The decoder describes the frame if the bytes are accepted by
`Frame::new` and the frame is decodable; for all other bytes it panics.  It never returns `Err` (so
the program's message "Failed to parse the frame." is never printed). -/
theorem C54_exact (b : Bytes) :
    (∃ f, Frame.new b = .ok f ∧ Decodable f ∧ ∃ L, Cat.parse b = .ok L ∧ Describes f L) ∨
    ((∀ f, Frame.new b = .ok f → ¬ Decodable f) ∧ Cat.parse b = .panic) := by
  cases hf : Frame.new b with
  | err => exact .inr ⟨by simp, by simp [Cat.parse, hf]⟩
  | panic => exact .inr ⟨by simp, by simp [Cat.parse, hf]⟩
  | ok f =>
    obtain ⟨⟨o0, o1, g1⟩, g2, g3, g4, g5, g6, g7, -⟩ := frame_facts hf
    rcases catParse_frame hf g1 g2 g3 g4 g5 g6 g7 with ⟨h1, h2⟩ | ⟨h1, h2⟩
    · exact .inl ⟨f, rfl, h1, h2⟩
    · refine .inr ⟨?_, h2⟩
      rintro _ ⟨⟩
      exact h1

/-- Immediate acknowledgments, data frames and enhanced beacons are decodable unless they contain a
hazardous nested element. -/
theorem C54_decodable (b : Bytes) (f : Frame) (hf : Frame.new b = .ok f) (hk : f ≠ .enhancedAck b) :
    Decodable f ↔ ∀ ie c, f.informationElements = .ok (some ie) → NestedOf ie c → ¬ Hazardous c := by
  constructor
  · exact fun h => h.2.2.2.2.2.2.1
  intro h
  have acc : ∀ f : Frame, (f = .enhancedBeacon b ∨ f = .data b) → Acceptable b →
      (∀ ie c, f.informationElements = .ok (some ie) → NestedOf ie c → ¬ Hazardous c) →
      Decodable f := by
    intro f hf ha h
    obtain ⟨r1, r2, r3, r4, r5, r6, r7, -⟩ := accessorsReturn_of_splits _ _ (splits_data b ha)
    have r7' : ∀ af, DataFrame.addressing b = .ok (some af) →
      Returns af.dstPanId ∧ Returns af.dstAddress ∧ Returns af.srcPanId ∧ Returns af.srcAddress :=
      fun af e => ⟨(r7 af e).1, (r7 af e).2.1, (r7 af e).2.2.1, (r7 af e).2.2.2.1⟩
    rcases hf with rfl | rfl <;> exact ⟨r1, r2, r3, r7', r4, r5, h, r6⟩
  obtain ⟨⟨o0, o1, g1⟩, -, -, -, -, -, -, g⟩ := frame_facts hf
  rcases g with ⟨rfl, hl⟩ | rfl | ⟨rfl, ha⟩ | ⟨rfl, ha⟩
  · refine ⟨by simp [g1], ?_, by simp [Frame.addressing], by simp [Frame.addressing],
      by simp [Frame.auxSecHeader], by simp [Frame.informationElements], h, by simp [Frame.payload]⟩
    have : Ack.sequenceNumber b = .ok (b[2]'(by omega)) := idx_lt (by omega)
    simp [Frame.sequenceNumber, this]
  · exact absurd rfl hk
  · exact acc _ (.inl rfl) ha h
  · exact acc _ (.inr rfl) ha h

/-- A text is the hexadecimal form of the bytes: two digits, of either case, per byte. -/
inductive HexText : List Char → Bytes → Prop
  | nil : HexText [] []
  | byte {c d x y s b} : specDigit c = some x → specDigit d = some y → HexText s b →
      HexText (c :: d :: s) (BitVec.ofNat 8 (16 * x + y) :: b)

theorem hexDecode_spec : ∀ s : List Char, (∃ b, HexText s b ∧ Cat.hexDecode s = .ok b) ∨
    ((¬ ∃ b, HexText s b) ∧ Cat.hexDecode s = .err)
  | [] => .inl ⟨[], .nil, rfl⟩
  | [c] => .inr ⟨fun ⟨_, h⟩ => (by cases h), rfl⟩
  | c :: d :: s => by
    rw [Cat.hexDecode, digit_eq, digit_eq]
    cases hc : specDigit c with
    | none => exact .inr ⟨fun ⟨_, h⟩ => by cases h; simp_all, rfl⟩
    | some x =>
      cases hd : specDigit d with
      | none => exact .inr ⟨fun ⟨_, h⟩ => by cases h; simp_all, rfl⟩
      | some y =>
        rcases hexDecode_spec s with ⟨b, h1, h2⟩ | ⟨h1, h2⟩
        · exact .inl ⟨_, .byte hc hd h1, by simp [h2]⟩
        · refine .inr ⟨fun ⟨_, h⟩ => ?_, by simp [h2]⟩
          cases h with
          | byte _ _ h => exact h1 ⟨_, h⟩

theorem HexText.unique {s : List Char} {b b' : Bytes} (h : HexText s b) (h' : HexText s b') : b = b' := by
  induction h generalizing b' with
  | nil => cases h'; rfl
  | byte h1 h2 _ ih =>
    cases h' with
    | byte h1' h2' h3' =>
      rw [h1] at h1'; cases h1'
      rw [h2] at h2'; cases h2'
      rw [ih h3']

/-- **C54**, the argument of the program: hexadecimal text is decoded like its bytes, on any other
text the program panics. -/
theorem C54_hex (s : List Char) :
    (∀ b, HexText s b → Cat.parseHex s = Cat.parse b) ∧
    ((¬ ∃ b, HexText s b) → Cat.parseHex s = .panic) := by
  rcases hexDecode_spec s with ⟨b, h1, h2⟩ | ⟨h1, h2⟩
  · exact ⟨fun b' h => by rw [h1.unique h] at h2; simp [Cat.parseHex, h2], fun h => absurd ⟨b, h1⟩ h⟩
  · exact ⟨fun b h => absurd ⟨b, h⟩ h1, fun _ => by simp [Cat.parseHex, h2]⟩

example : Cat.parseHex "020005".toList = Cat.parse [0x02, 0x00, 0x05] := rfl

/-- The full claim of C54. -/
def C54_statement : Prop := ∀ s : List Char, Returns (Cat.parseHex s)

/-- It is false: a text that is not hexadecimal, the two bytes of a truncated data frame, a 2006
beacon, a truncated enhanced acknowledgment, and a complete data frame with a hazardous element. -/
theorem C54_false : ¬ C54_statement ∧ Cat.parseHex ['0', 'g'] = .panic ∧
    Cat.parse [0x01, 0x00] = .panic ∧ Cat.parse [0x00, 0x10, 0x01] = .panic ∧
    Cat.parse [0x02, 0x20] = .panic ∧ Cat.parse slotframeFrame = .panic := by
  refine ⟨fun h => h ['0', 'g'] (by decide +kernel), ?_, ?_, ?_, ?_, ?_⟩ <;> decide +kernel

/-- The first example of the program's test suite (dot15d4-cat/tests). -/
def exampleBeacon : Bytes :=
  [0x40, 0xeb, 0xcd, 0xab, 0xff, 0xff, 0x01, 0x00, 0x01, 0x00, 0x01, 0x00, 0x01, 0x00, 0x00, 0x3f,
    0x11, 0x88, 0x06, 0x1a, 0x0e, 0x00, 0x00, 0x00, 0x00, 0x00, 0x01, 0x1c, 0x00, 0x01, 0xc8, 0x00,
    0x01, 0x1b, 0x00]

example : Cat.parse exampleBeacon = .ok [
    (0, .text "Frame Control"), (2, .frameType true .beacon), (2, .bit "security" false),
    (2, .bit "frame pending" false), (2, .bit "ack request" false), (2, .bit "pan id compression" true),
    (2, .bit "sequence number suppression" true), (2, .bit "information elements present" true),
    (2, .mode "dst addressing mode" .short), (2, .mode "src addressing mode" .extended),
    (2, .version .v2020), (0, .text "Addressing"), (2, .panId "dst pan id" 0xabcd),
    (2, .address "dst addr" .BROADCAST true),
    (2, .address "src addr" (.extended ⟨[0, 1, 0, 1, 0, 1, 0, 1], rfl⟩) false),
    (0, .text "Information Elements"), (2, .text "Header Information Elements"),
    (4, .headerElement .headerTermination1), (2, .text "Payload Information Elements"),
    (4, .text "MLME"), (6, .nestedElement (.short .tschSynchronization)), (8, .synchronization 14 0),
    (6, .nestedElement (.short .tschTimeslot)), (8, .timeslot 0),
    (6, .nestedElement (.long .channelHopping)), (8, .channelHopping 0),
    (6, .nestedElement (.short .tschSlotframeAndLink)), (8, .slotframes 0)] := by
  decide +kernel

example : ∃ f, Frame.new exampleBeacon = .ok f ∧ Decodable f := by
  rcases C54_exact exampleBeacon with ⟨f, h1, h2, -⟩ | ⟨-, h⟩
  · exact ⟨f, h1, h2⟩
  · exact absurd h (by decide +kernel)

end Dot15d4.Props
