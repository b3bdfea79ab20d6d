import Verif.Lemmas.Addressing
import Mathlib.Data.List.Forall2
import Mathlib.Data.List.Induction
/-! # C07, C08: single addresses -/
namespace Dot15d4.Props
open Dot15d4 Out Address

private theorem hex2_parse : ∀ b : Byte, fromStrRadix16 (hex2 b) = some b := by decide +kernel
private theorem hex2_nocolon : ∀ b : Byte, ∀ c ∈ hex2 b, c ≠ ':' := by decide +kernel

private theorem splitColon_ne_nil (s : List Char) : splitColon s ≠ [] := by
  cases s with
  | nil => simp [splitColon]
  | cons c cs =>
    unfold splitColon
    split
    · simp
    · split <;> simp

private theorem splitColon_nocolon (p : List Char) (hp : ∀ c ∈ p, c ≠ ':') : splitColon p = [p] := by
  induction p with
  | nil => rfl
  | cons c cs ih =>
    have := ih (fun x hx => hp x (by simp [hx]))
    simp [splitColon, hp c (by simp), this]

private theorem splitColon_append (p s : List Char) (hp : ∀ c ∈ p, c ≠ ':') :
    splitColon (p ++ ':' :: s) = p :: splitColon s := by
  induction p with
  | nil => simp [splitColon]
  | cons c cs ih =>
    have := ih (fun x hx => hp x (by simp [hx]))
    simp [splitColon, hp c (by simp), this]

private theorem split_hexColon (b : Byte) (bs : Bytes) :
    splitColon (hexColon (b :: bs)) = (b :: bs).map hex2 := by
  induction bs generalizing b with
  | nil => simp [hexColon, splitColon_nocolon _ (hex2_nocolon b)]
  | cons c cs ih => simp [hexColon, splitColon_append _ _ (hex2_nocolon b), ih c]

private theorem parseParts_hex (bs : Bytes) : parseParts (bs.map hex2) = .ok bs := by
  induction bs with
  | nil => rfl
  | cons b bs ih => simp [parseParts, hex2_parse, ih]

private theorem hexColon_ne_nil (b : Byte) (bs : Bytes) : (hexColon (b :: bs)).isEmpty = false := by
  cases bs <;> simp [hexColon, hex2]

/-- **C07**.  Parsing the displayed text of a short or extended address gives the address back. -/
theorem C07_parse_display (a : Address) (h : a ≠ .absent) : parse a.display = .ok a := by
  cases a with
  | absent => contradiction
  | short v =>
    obtain ⟨v, hv⟩ := v
    match v, hv with
    | b :: bs, hv =>
      simp only [display, parse, hexColon_ne_nil, split_hexColon, List.length_map, hv,
        parseParts_hex, bind_ok]
      simp [arrOfSlice, hv]
  | extended v =>
    obtain ⟨v, hv⟩ := v
    match v, hv with
    | b :: bs, hv =>
      simp only [display, parse, hexColon_ne_nil, split_hexColon, List.length_map, hv,
        parseParts_hex, bind_ok]
      simp [arrOfSlice, hv]

example : parse (Address.short ⟨[0x0a, 0xff], rfl⟩).display = .ok (.short ⟨[0x0a, 0xff], rfl⟩) :=
  C07_parse_display _ (by decide)

/-- C07: the displayed form is injective on present addresses. -/
theorem C07_display_injective (a b : Address) (ha : a ≠ .absent) (hb : b ≠ .absent)
    (h : a.display = b.display) : a = b := by
  have h1 := C07_parse_display a ha
  rw [h, C07_parse_display b hb] at h1
  exact (Out.ok.inj h1).symm

example : (Address.short ⟨[0x0a, 0xff], rfl⟩).display ≠ (Address.short ⟨[0x0a, 0xfe], rfl⟩).display :=
  fun h => absurd (C07_display_injective _ _ (by decide) (by decide) h) (by decide)

/-- C07: the absent address is the exception: its text is rejected, while empty text is absent. -/
theorem C07_absent : parse Address.absent.display = .err ∧ parse [] = .ok .absent := by decide

/-- C07: text whose number of `:`-separated groups is neither 2 nor 8 is an error, whatever the
groups contain. -/
theorem C07_group_count (s : List Char) (hs : s ≠ []) (h2 : (splitColon s).length ≠ 2)
    (h8 : (splitColon s).length ≠ 8) : parse s = .err := by
  have : s.isEmpty = false := by cases s <;> simp_all
  simp [parse, this, h2, h8]

example : parse "1:2:zz".toList = .err := C07_group_count _ (by decide) (by decide) (by decide)

private theorem parseParts_panic (ps : List (List Char)) (p : List Char) (hp : p ∈ ps)
    (h : fromStrRadix16 p = none) : parseParts ps = .panic := by
  induction ps with
  | nil => simp at hp
  | cons q qs ih =>
    simp only [parseParts]
    cases hq : fromStrRadix16 q with
    | none => simp
    | some b =>
      have : p ∈ qs := by
        rcases List.mem_cons.mp hp with rfl | h'
        · rw [h] at hq; simp at hq
        · exact h'
      simp [ih this]

/-- C07, the robustness part is false: `parse` returns `Result`, yet text with 2 or 8 groups one
of which is not an 8-bit hexadecimal number panics. -/
theorem C07_bad_digits_panic (s : List Char) (hs : s ≠ [])
    (hl : (splitColon s).length = 2 ∨ (splitColon s).length = 8) (p : List Char)
    (hp : p ∈ splitColon s) (h : fromStrRadix16 p = none) : parse s = .panic := by
  have he : s.isEmpty = false := by cases s <;> simp_all
  have := parseParts_panic _ p hp h
  rcases hl with hl | hl <;> simp [parse, he, hl, this]

/-- Concrete instances: an accepted text and a panicking one. -/
example : parse ['0', '1', ':', 'F', 'f'] = .ok (.short ⟨[0x01, 0xff], rfl⟩) ∧
    parse ['g', ':', '1'] = .panic := by decide

/-! ### Exactly which texts are accepted -/

/-- Value of a hexadecimal digit of either case. -/
def specDigit (c : Char) : Option Nat :=
  ("0123456789abcdef".toList.idxOf? c).or ("0123456789ABCDEF".toList.idxOf? c)

/-- The number written by a nonempty sequence of hexadecimal digits, most significant first. -/
inductive HexNumber : List Char → Nat → Prop where
  | one {c n} : specDigit c = some n → HexNumber [c] n
  | snoc {s m c n} : HexNumber s m → specDigit c = some n → HexNumber (s ++ [c]) (16 * m + n)

/-- A group of an address text denotes the octet `b`: hexadecimal digits, of any number, with an
optional plus sign, whose value is `b`. -/
def GroupIs (g : List Char) (b : Byte) : Prop := HexNumber g b.toNat ∨ ∃ h, g = '+' :: h ∧ HexNumber h b.toNat

theorem digit_eq (c : Char) : hexVal c = specDigit c := by
  by_cases h : c.toNat < 128
  · have key : ∀ n : Fin 128, hexVal (Char.ofNat n) = specDigit (Char.ofNat n) := by decide +kernel
    have := key ⟨c.toNat, h⟩
    simpa using this
  · have e1 : hexVal c = none := by
      have h9 : ¬ c ≤ '9' := by
        intro hc; exact h (Nat.lt_of_le_of_lt hc (by decide))
      have hf : ¬ c ≤ 'f' := by
        intro hc; exact h (Nat.lt_of_le_of_lt hc (by decide))
      have hF : ¬ c ≤ 'F' := by
        intro hc; exact h (Nat.lt_of_le_of_lt hc (by decide))
      simp [hexVal, h9, hf, hF]
    have e2 : ∀ l : List Char, (∀ x ∈ l, x.toNat < 128) → l.idxOf? c = none := by
      intro l hl
      rw [List.idxOf?_eq_none_iff]
      intro hc
      exact h (hl c hc)
    rw [e1, specDigit, e2 _ (by decide), e2 _ (by decide)]
    rfl

private theorem hexDigits_snoc (s : List Char) (c : Char) : ∀ acc, 
    fromHexDigits acc (s ++ [c]) = (fromHexDigits acc s).bind fun m => (hexVal c).bind fun n =>
      if m * 16 + n < 256 then some (m * 16 + n) else none := by
  induction s with
  | nil => intro acc; simp [fromHexDigits]; cases hexVal c <;> simp
  | cons x s ih =>
    intro acc
    simp only [List.cons_append, fromHexDigits]
    cases hexVal x with
    | none => simp
    | some d =>
      simp only []
      split
      · exact ih _
      · simp

private theorem hexNumber_nil (v : Nat) : ¬ HexNumber [] v := fun h => by
  generalize hl : ([] : List Char) = l at h
  cases h with
  | one => cases hl
  | snoc => simp at hl

private theorem hexDigits_iff (s : List Char) (hs : s ≠ []) (v : Nat) :
    fromHexDigits 0 s = some v ↔ HexNumber s v ∧ v < 256 := by
  induction s using List.reverseRecOn generalizing v with
  | nil => exact absurd rfl hs
  | append_singleton s c ih =>
    rw [hexDigits_snoc]
    by_cases he : s = []
    · subst he
      simp only [fromHexDigits, List.nil_append, Option.bind_some, digit_eq]
      constructor
      · intro h
        cases hd : specDigit c with
        | none => simp [hd] at h
        | some n =>
          simp [hd] at h
          obtain ⟨h1, rfl⟩ := h
          exact ⟨.one hd, h1⟩
      · rintro ⟨h, hv⟩
        have : specDigit c = some v := by
          generalize hl : [c] = l at h
          cases h with
          | one h => cases hl; exact h
          | @snoc s' m c' n h h' =>
            have : s' = [] := by
              have := congrArg List.length hl
              simpa using this
            subst this
            exact absurd h (hexNumber_nil _)
        simp [this, hv]
    · have ih := ih he
      constructor
      · intro h
        cases hm : fromHexDigits 0 s with
        | none => simp [hm] at h
        | some m =>
          cases hd : hexVal c with
          | none => simp [hm, hd] at h
          | some n =>
            simp [hm, hd] at h
            obtain ⟨h1, rfl⟩ := h
            refine ⟨?_, h1⟩
            rw [Nat.mul_comm]
            exact .snoc ((ih m).mp hm).1 (by rw [← digit_eq]; exact hd)
      · rintro ⟨h, hv⟩
        generalize hl : s ++ [c] = l at h
        cases h with
        | one h =>
          have := congrArg List.length hl
          simp at this; exact absurd this he
        | @snoc s' m c' n h h' =>
          obtain ⟨rfl, h2⟩ := List.append_inj' hl rfl
          simp at h2; subst h2
          rw [(ih m).mpr ⟨h, by omega⟩, digit_eq, h']
          simp; omega

private theorem hexNumber_head {c : Char} {s : List Char} {v : Nat} (h : HexNumber (c :: s) v) :
    (specDigit c).isSome := by
  generalize hl : c :: s = l at h
  induction h generalizing s with
  | one h => cases hl; simp [h]
  | @snoc s' m c' n h h' ih =>
    cases s' with
    | nil => exact absurd h (hexNumber_nil _)
    | cons x xs => simp at hl; exact ih (s := xs) (by rw [hl.1])

private theorem radix_iff (g : List Char) (b : Byte) : fromStrRadix16 g = some b ↔ GroupIs g b := by
  have key : ∀ s, s ≠ [] → ((fromHexDigits 0 s).map (BitVec.ofNat 8) = some b ↔
      HexNumber s b.toNat) := by
    intro s hs
    constructor
    · intro h
      obtain ⟨v, hv, rfl⟩ := Option.map_eq_some_iff.mp h
      obtain ⟨h1, h2⟩ := (hexDigits_iff s hs v).mp hv
      simpa [Nat.mod_eq_of_lt h2] using h1
    · intro h
      rw [(hexDigits_iff s hs _).mpr ⟨h, b.isLt⟩]
      simp
  have hp : ∀ s v, ¬ HexNumber ('+' :: s) v := fun s v h => by
    have := hexNumber_head h
    exact absurd this (by decide)
  have hn := hexNumber_nil
  unfold fromStrRadix16 GroupIs
  split
  · simp [hn]
  · simp [hp, hn]
  · rename_i cs h
    have : cs ≠ [] := fun e => h (by rw [e])
    rw [key cs this]
    simp [hp]
  · rename_i h1 h2 h3
    rw [key g h1]
    constructor
    · exact Or.inl
    · rintro (h | ⟨s, rfl, -⟩)
      · exact h
      · exact absurd rfl (h3 s)

private theorem parts_iff (gs : List (List Char)) (bs : Bytes) :
    parseParts gs = .ok bs ↔ List.Forall₂ GroupIs gs bs := by
  induction gs generalizing bs with
  | nil => cases bs <;> simp [parseParts]
  | cons g gs ih =>
    simp only [parseParts]
    cases hg : fromStrRadix16 g with
    | none =>
      simp only [ofSome, bind_panic]
      constructor
      · intro h; cases h
      · rintro (_ | ⟨h, _⟩)
        rw [← radix_iff, hg] at h; cases h
    | some b =>
      have hb := (radix_iff g b).mp hg
      simp only [ofSome, bind_ok, bind_eq_ok, ok.injEq]
      constructor
      · rintro ⟨a, h1, rfl⟩
        exact .cons hb ((ih a).mp h1)
      · rintro (_ | ⟨h, h'⟩)
        rw [← radix_iff, hg] at h
        cases h
        exact ⟨_, (ih _).mpr h', rfl⟩

private theorem splitColon_join (gs : List (List Char)) (hne : gs ≠ [])
    (h : ∀ g ∈ gs, ':' ∉ g) : splitColon (List.intercalate [':'] gs) = gs := by
  induction gs with
  | nil => exact absurd rfl hne
  | cons g gs ih =>
    have hg : ∀ c ∈ g, c ≠ ':' := fun c hc e => h g (by simp) (e ▸ hc)
    cases gs with
    | nil => simpa using splitColon_nocolon g hg
    | cons k ks =>
      have := ih (by simp) (fun x hx => h x (by simp [hx]))
      rw [List.intercalate_cons_cons, List.append_assoc, List.singleton_append,
        splitColon_append _ _ hg, this]

private theorem splitColon_spec (s : List Char) : List.intercalate [':'] (splitColon s) = s ∧
    ∀ g ∈ splitColon s, ':' ∉ g := by
  induction s with
  | nil => simp [splitColon]
  | cons c s ih =>
    obtain ⟨h1, h2⟩ := ih
    unfold splitColon
    split
    · rename_i hc; subst hc
      obtain ⟨g, gs, hg⟩ := List.exists_cons_of_ne_nil (splitColon_ne_nil s)
      rw [hg] at h1 h2 ⊢
      rw [List.intercalate_cons_cons, h1]
      refine ⟨rfl, ?_⟩
      intro g' hg'
      rcases List.mem_cons.mp hg' with rfl | h'
      · simp
      · exact h2 _ h'
    · rename_i hc
      obtain ⟨g, gs, hg⟩ := List.exists_cons_of_ne_nil (splitColon_ne_nil s)
      rw [hg] at h1 h2 ⊢
      refine ⟨?_, ?_⟩
      · cases gs with
        | nil => simp_all
        | cons k ks =>
          simp only [List.intercalate_cons_cons] at h1 ⊢
          rw [← h1]; simp
      · intro g' hg'
        rcases List.mem_cons.mp hg' with rfl | h'
        · have := h2 g (by simp)
          simp [this, Ne.symm hc]
        · exact h2 _ (by simp [h'])

private theorem parse_two (s : List Char) (hs : s ≠ []) (bs : Bytes) :
    (∃ a, parse s = .ok a ∧ a.asBytes = bs) ↔ ((splitColon s).length = 2 ∨
      (splitColon s).length = 8) ∧ List.Forall₂ GroupIs (splitColon s) bs := by
  have he : s.isEmpty = false := by cases s <;> simp_all
  rw [← parts_iff]
  have hlen : ∀ b, parseParts (splitColon s) = .ok b → b.length = (splitColon s).length :=
    fun b hb => ((parts_iff _ _).mp hb).length_eq.symm
  simp only [parse, he, Bool.false_eq_true, if_false]
  by_cases h2 : (splitColon s).length = 2
  · rw [if_pos h2]
    constructor
    · rintro ⟨a, h, rfl⟩
      obtain ⟨b, hb, h⟩ := bind_eq_ok.mp h
      have := hlen b hb
      simp [arrOfSlice, this, h2] at h
      subst h
      exact ⟨.inl h2, hb⟩
    · rintro ⟨-, h⟩
      have := hlen bs h
      rw [h2] at this
      exact ⟨.short ⟨bs, this⟩, by simp [h, arrOfSlice, this], rfl⟩
  · rw [if_neg h2]
    by_cases h8 : (splitColon s).length = 8
    · rw [if_pos h8]
      constructor
      · rintro ⟨a, h, rfl⟩
        obtain ⟨b, hb, h⟩ := bind_eq_ok.mp h
        have := hlen b hb
        simp [arrOfSlice, this, h8] at h
        subst h
        exact ⟨.inr h8, hb⟩
      · rintro ⟨-, h⟩
        have := hlen bs h
        rw [h8] at this
        exact ⟨.extended ⟨bs, this⟩, by simp [h, arrOfSlice, this], rfl⟩
    · rw [if_neg h8]
      simp [h2, h8]

/-- **C07**.  Nonempty text is accepted, with the octets `bs`, exactly when it consists of 2 or 8
groups joined by colons, the `i`-th group being the hexadecimal text of the `i`-th octet. -/
theorem C07_accepted_texts (s : List Char) (hs : s ≠ []) (bs : Bytes) :
    (∃ a, parse s = .ok a ∧ a.asBytes = bs) ↔
    (bs.length = 2 ∨ bs.length = 8) ∧ ∃ gs, s = List.intercalate [':'] gs ∧
      (∀ g ∈ gs, ':' ∉ g) ∧ List.Forall₂ GroupIs gs bs := by
  rw [parse_two s hs]
  obtain ⟨h1, h2⟩ := splitColon_spec s
  constructor
  · rintro ⟨h, h'⟩
    rw [h'.length_eq] at h
    exact ⟨h, _, h1.symm, h2, h'⟩
  · rintro ⟨h, gs, rfl, h3, h4⟩
    have hne : gs ≠ [] := by
      rintro rfl
      have := h4.length_eq
      simp at this; rw [← this] at h; simp at h
    rw [splitColon_join gs hne h3, h4.length_eq]
    exact ⟨h, h4⟩

/-- A long group is accepted when its value fits an octet, and is not when it does not. -/
example : parse ['0', '0', '1', ':', '+', 'F'] = .ok (.short ⟨[0x01, 0x0f], rfl⟩) ∧
    parse ['1', '0', '0', ':', '1'] = .panic := by decide

/-- **C08**.  The kinds partition the addresses, and `len`, `as_bytes`, the addressing mode and
`Address::from` agree with them. -/
theorem C08_kinds (a : Address) :
    a.isAbsent.toNat + a.isShort.toNat + a.isExtended.toNat = 1 ∧
    a.len = a.asBytes.length ∧ a.mode.size = a.len ∧ ofBytes a.asBytes = .ok a ∧
    (a.isAbsent = true ↔ a.len = 0) ∧ (a.isShort = true ↔ a.len = 2) ∧
    (a.isExtended = true ↔ a.len = 8) := by
  cases a with
  | absent => decide
  | short v =>
    obtain ⟨v, hv⟩ := v
    match v, hv with
    | [x, y], hv =>
      refine ⟨rfl, rfl, rfl, ?_, ?_⟩
      · simp [ofBytes, asBytes, arrOfSlice]
      · simp [isAbsent, isShort, isExtended, len]
  | extended v =>
    obtain ⟨v, hv⟩ := v
    refine ⟨rfl, by simp [len, asBytes, hv], rfl, ?_, ?_⟩
    · have : v.isEmpty = false := by cases v <;> simp_all
      simp [ofBytes, asBytes, arrOfSlice, hv, this]
    · simp [isAbsent, isShort, isExtended, len]

/-- **C08**.  `Address::from` accepts exactly slices of 0, 2 or 8 bytes, and is then inverted by
`as_bytes`; any other length panics (`unreachable!`). -/
theorem C08_from (b : Bytes) :
    ((b.length = 0 ∨ b.length = 2 ∨ b.length = 8) → ∃ a, ofBytes b = .ok a ∧ a.asBytes = b) ∧
    (¬ (b.length = 0 ∨ b.length = 2 ∨ b.length = 8) → ofBytes b = .panic) := by
  constructor
  · rintro (h | h | h)
    · exact ⟨.absent, by simp [ofBytes, List.length_eq_zero_iff.mp h], by
        simp [asBytes, List.length_eq_zero_iff.mp h]⟩
    · have : b.isEmpty = false := by cases b <;> simp_all
      exact ⟨.short ⟨b, h⟩, by simp [ofBytes, this, h, arrOfSlice], rfl⟩
    · have : b.isEmpty = false := by cases b <;> simp_all
      exact ⟨.extended ⟨b, h⟩, by simp [ofBytes, this, h, arrOfSlice], rfl⟩
  · intro h
    have : b.isEmpty = false := by cases b <;> simp_all
    have h2 : b.length ≠ 2 := by omega
    have h8 : b.length ≠ 8 := by omega
    simp [ofBytes, this, h2, h8]

example : (∃ a, ofBytes [1, 2] = .ok a ∧ a.asBytes = [1, 2]) ∧ ofBytes [1, 2, 3] = .panic :=
  ⟨(C08_from _).1 (by decide), (C08_from _).2 (by decide)⟩

/-- **C08**.  Broadcast is exactly the short address `ff:ff`; unicast is everything else, which
includes the absent address and the all-ones extended address. -/
theorem C08_broadcast (a : Address) :
    (a.isBroadcast = true ↔ a.isShort = true ∧ a.asBytes = [0xff, 0xff]) ∧
    a.isUnicast = !a.isBroadcast ∧ (a.isAbsent = true → a.isUnicast = true) := by
  refine ⟨?_, rfl, ?_⟩
  · cases a with
    | absent => decide
    | extended v => simp [isBroadcast, BROADCAST, isShort]
    | short v =>
      simp only [isBroadcast, BROADCAST, isShort, asBytes, beq_iff_eq, Address.short.injEq,
        true_and]
      exact Subtype.ext_iff
  · cases a <;> simp [isAbsent, isUnicast, isBroadcast, BROADCAST]

example : Address.BROADCAST.isUnicast = false ∧ Address.absent.isUnicast = true :=
  ⟨by decide, (C08_broadcast _).2.2 rfl⟩

/-- C08: `to_short` is the identity on short addresses, takes the first two octets (in textual
order) of an extended one, and never panics. -/
theorem C08_to_short (a : Address) :
    (a.isShort = true → a.toShort = .ok (some a)) ∧
    (a.isAbsent = true → a.toShort = .ok none) ∧
    (a.isExtended = true → ∃ s, a.toShort = .ok (some s) ∧ s.isShort = true ∧
      s.asBytes = a.asBytes.take 2) := by
  cases a with
  | absent => simp [isShort, isExtended, toShort]
  | short v => simp [isAbsent, isExtended, toShort]
  | extended v =>
    refine ⟨by simp [isShort], by simp [isAbsent], fun _ => ?_⟩
    have h : (v.1.take 2).length = 2 := by simp [v.2]
    refine ⟨.short ⟨v.1.take 2, h⟩, ?_, rfl, rfl⟩
    simp [toShort, sliceTo, v.2, arrOfSlice]

example : ∃ s, (Address.extended ⟨[1, 2, 3, 4, 5, 6, 7, 8], rfl⟩).toShort = .ok (some s) ∧
    s.isShort = true ∧ s.asBytes = [1, 2] := (C08_to_short _).2.2 rfl

end Dot15d4.Props
