import Verif.Model.Generated
import Verif.Props.Build
import Verif.Lemmas.Text
import Verif.Props.CsmaCalls
import Verif.Props.Latency

/-! # C96: from the environment of the build to the constants of the device -/

namespace Dot15d4.Props
open Build Csma

/-! ## What the property says -/

/-- The environment sets every constant it sets to an expression of the constant's type (one of those the
model reads). -/
def Typed (env : List Var) : Prop :=
  ∀ name v, Sets env name v → ∀ c ∈ configs, c.name = name → readable c.ty v = true

/-- A constant has the value the environment sets it to, or its default. -/
def Setting {α : Type} (env : List Var) (name : String) (read : Text → Option α) (default x : α) : Prop :=
  (∃ v, Sets env name.toList v ∧ read v = some x) ∨ (∀ v, ¬ Sets env name.toList v) ∧ x = default

/-- The constants of a device are those the environment of its build asks for. -/
structure AsSet (env : List Var) (c : Consts) : Prop where
  minBe : Setting env "MAC_MIN_BE" u16Expr 0 c.minBe
  maxBe : Setting env "MAC_MAX_BE" u16Expr 8 c.maxBe
  maxCsmaBackoffs : Setting env "MAC_MAX_CSMA_BACKOFFS" u16Expr 16 c.maxCsmaBackoffs
  unitBackoff : Setting env "MAC_UNIT_BACKOFF_DURATION" durationExpr ⟨320⟩ c.unitBackoff
  maxFrameRetries : Setting env "MAC_MAX_FRAME_RETIES" u16Expr 3 c.maxFrameRetries
  aifs : Setting env "MAC_AIFS_PERIOD" durationExpr ⟨1000⟩ c.aifs
  sifs : Setting env "MAC_SIFS_PERIOD" durationExpr ⟨1000⟩ c.sifs
  panId : Setting env "MAC_PAN_ID" u16Expr 0xffff c.panId.toNat
  implicitBroadcast : Setting env "MAC_IMPLICIT_BROADCAST" boolExpr false c.implicitBroadcast

/-! ## Reading the file -/

theorem stripPrefix_append (p s : Text) : stripPrefix p (p ++ s) = some s := (stripPrefix_iff p _ s).2 rfl

theorem splitAtFirst_append (x : Char) (sep a b : Text) (h : x ∉ a) :
    splitAtFirst (x :: sep) (a ++ (x :: sep) ++ b) = some (a, b) := by
  induction a with
  | nil =>
    show splitAtFirst (x :: sep) (x :: (sep ++ b)) = _
    rw [splitAtFirst, show (x :: (sep ++ b)) = (x :: sep) ++ b from rfl, stripPrefix_append]
  | cons c a ih =>
    have hc : x ≠ c := fun e => h (by rw [e]; exact List.mem_cons_self)
    show splitAtFirst (x :: sep) (c :: (a ++ (x :: sep) ++ b)) = _
    rw [splitAtFirst, show stripPrefix (x :: sep) (c :: (a ++ (x :: sep) ++ b)) = none by
      rw [stripPrefix, if_neg hc]]
    dsimp only
    rw [ih (fun hm => h (List.mem_cons_of_mem _ hm))]
    rfl

/-- The definition can be told from its surroundings. -/
def CleanDef (d : Definition) : Prop := ':' ∉ d.name ∧ ' ' ∉ d.ty ∧ ';' ∉ d.value

/-- A definition as the item it is. -/
def Definition.item (d : Definition) : Item := ⟨d.name, d.ty, d.value⟩

theorem readItem_line (d : Definition) (h : CleanDef d) (rest : Text) :
    readItem (d.line ++ rest) = some (d.item, rest) := by
  have e : d.line ++ rest = "pub const ".toList ++ (d.name ++ ": ".toList ++ (d.ty ++ " = ".toList ++
      (d.value ++ ";\n".toList ++ rest))) := by
    unfold Definition.line; simp only [List.append_assoc]
  have h1 : ∀ s, splitAtFirst ": ".toList (d.name ++ ": ".toList ++ s) = some (d.name, s) :=
    fun s => splitAtFirst_append ':' [' '] _ _ h.1
  have h2 : ∀ s, splitAtFirst " = ".toList (d.ty ++ " = ".toList ++ s) = some (d.ty, s) :=
    fun s => splitAtFirst_append ' ' ['=', ' '] _ _ h.2.1
  have h3 : ∀ s, splitAtFirst ";\n".toList (d.value ++ ";\n".toList ++ s) = some (d.value, s) :=
    fun s => splitAtFirst_append ';' ['\n'] _ _ h.2.2
  rw [readItem, e, stripPrefix_append]
  show (splitAtFirst _ _ >>= _) = _
  rw [h1]
  show (splitAtFirst _ _ >>= _) = _
  rw [h2]
  show (splitAtFirst _ _ >>= _) = _
  rw [h3]
  rfl

theorem readItems_lines (defs : List Definition) (h : ∀ d ∈ defs, CleanDef d) (n : Nat) (hn : defs.length ≤ n) :
    readItems n (defs.flatMap Definition.line) = some (defs.map Definition.item) := by
  induction defs generalizing n with
  | nil => cases n <;> rfl
  | cons d defs ih =>
    cases n with
    | zero => cases hn
    | succ n =>
      have hr := readItem_line d (h d List.mem_cons_self) (defs.flatMap Definition.line)
      rw [List.flatMap_cons]
      have hne : d.line ++ defs.flatMap Definition.line ≠ [] := by
        unfold Definition.line; simp
      generalize hg : d.line ++ defs.flatMap Definition.line = s at *
      cases s with
      | nil => exact absurd rfl hne
      | cons c s =>
        rw [readItems.eq_3 _ _ hne, hr]
        show (readItems n _ >>= _) = _
        rw [ih (fun d hd => h d (List.mem_cons_of_mem _ hd)) n (Nat.le_of_succ_le_succ hn)]
        rfl

theorem length_lines (defs : List Definition) : defs.length ≤ (defs.flatMap Definition.line).length := by
  induction defs with
  | nil => exact Nat.le_refl 0
  | cons d defs ih =>
    rw [List.flatMap_cons, List.length_append, List.length_cons]
    have : 1 ≤ d.line.length := by
      unfold Definition.line; simp only [List.length_append]
      have : ("pub const ".toList).length = 10 := by decide
      omega
    omega

/-! ## Expressions do not end the definition -/

theorem digitsFrom_no_semicolon (base : Nat) (s : Text) (acc n : Nat) (h : digitsFrom base s acc = some n) :
    ';' ∉ s := by
  induction s generalizing acc with
  | nil => exact List.not_mem_nil
  | cons c s ih =>
    rw [digitsFrom] at h
    rw [List.mem_cons, not_or]
    split at h
    · rename_i hc
      exact ⟨by rw [hc]; decide, ih _ h⟩
    · split at h
      · cases h
      · rename_i hd
        split at h
        · refine ⟨fun e => ?_, ih _ h⟩
          rw [← e, show digit ';' = none by decide] at hd
          cases hd
        · cases h

theorem natLit_no_semicolon (s : Text) (n : Nat) (h : natLit s = some n) : ';' ∉ s := by
  unfold natLit at h
  split at h
  · split at h
    · cases h
    · have := digitsFrom_no_semicolon _ _ _ _ h
      simp only [List.mem_cons, not_or]
      exact ⟨by decide, by decide, this⟩
  · split at h
    · cases h
    · exact digitsFrom_no_semicolon _ _ _ _ h
  · exact List.not_mem_nil

theorem u16Expr_eq {s : Text} {n : Nat} (h : u16Expr s = some n) : natLit s = some n ∧ n < 65536 := by
  unfold u16Expr at h
  split at h
  · rename_i m hm
    split at h
    · cases h; exact ⟨hm, by assumption⟩
    · cases h
  · cases h

theorem durationExpr_no_semicolon (s : Text) (d : Duration) (h : durationExpr s = some d) : ';' ∉ s := by
  unfold durationExpr at h
  split at h
  · rename_i e; rw [e]; decide
  · split at h
    · cases h
    · rename_i t ht
      rw [stripPrefix_iff] at ht
      split at h
      · rename_i hl
        split at h
        · rename_i m hm
          have h1 := natLit_no_semicolon _ _ hm
          have h2 : t = t.dropLast ++ [')'] := by
            obtain ⟨l, rfl⟩ := List.getLast?_eq_some_iff.1 hl
            rw [List.dropLast_concat]
          rw [ht, h2]
          simp only [List.mem_append, not_or]
          exact ⟨by decide, h1, by decide⟩
        · cases h
      · cases h

theorem boolExpr_no_semicolon (s : Text) (b : Bool) (h : boolExpr s = some b) : ';' ∉ s := by
  unfold boolExpr at h
  split at h
  · rename_i e; rw [e]; decide
  · split at h
    · rename_i e; rw [e]; decide
    · cases h

theorem readable_no_semicolon (ty s : Text) (h : readable ty s = true) : ';' ∉ s := by
  unfold readable at h
  split at h
  · obtain ⟨n, hn⟩ := Option.isSome_iff_exists.1 h
    exact natLit_no_semicolon _ _ (u16Expr_eq hn).1
  · split at h
    · obtain ⟨n, hn⟩ := Option.isSome_iff_exists.1 h
      exact durationExpr_no_semicolon _ _ hn
    · split at h
      · obtain ⟨n, hn⟩ := Option.isSome_iff_exists.1 h
        exact boolExpr_no_semicolon _ _ hn
      · cases h

/-! ## The constants -/

theorem named_one (defs : List Definition) (hn : (defs.map Definition.name).Nodup) (d : Definition)
    (hd : d ∈ defs) : named (defs.map Definition.item) d.name = [d.item] := by
  unfold named
  induction defs with
  | nil => cases hd
  | cons x l ih =>
    rw [List.map_cons, List.nodup_cons] at hn
    rw [List.map_cons]
    rcases List.mem_cons.1 hd with rfl | hd
    · rw [List.filter_cons_of_pos (by exact decide_eq_true rfl), List.filter_eq_nil_iff.2]
      intro i hi
      obtain ⟨y, hy, rfl⟩ := List.mem_map.1 hi
      intro e
      exact hn.1 (List.mem_map.2 ⟨y, hy, of_decide_eq_true e⟩)
    · rw [List.filter_cons_of_neg, ih hn.2 hd]
      intro e
      exact hn.1 (List.mem_map.2 ⟨d, hd, (of_decide_eq_true e).symm⟩)

theorem configs_clean : ∀ c ∈ configs, ':' ∉ c.name ∧ ' ' ∉ c.ty ∧ readable c.ty c.default = true := by
  decide

/-- The definitions of a build with a typed environment can be read. -/
theorem right_readable {env : List Var} (ht : Typed env) {d : Definition} (hd : RightDefinition env d) :
    CleanDef d ∧ readable d.ty d.value = true := by
  obtain ⟨c, hc, h1, h2, h3⟩ := hd
  obtain ⟨k1, k2, k3⟩ := configs_clean c hc
  have hr : readable d.ty d.value = true := by
    rcases h3 with h3 | ⟨-, h3⟩
    · rw [← h2]; exact ht _ _ h3 c hc h1
    · rw [← h2, h3]; exact k3
  exact ⟨⟨h1 ▸ k1, h2 ▸ k2, readable_no_semicolon _ _ hr⟩, hr⟩

/-- Looking up a constant in the generated file. -/
theorem lookup_setting {α : Type} {env : List Var} {defs : List Definition}
    (h2 : (defs.map Definition.name).Perm (configs.map Config.name)) (h3 : ∀ d ∈ defs, RightDefinition env d)
    (ht : Typed env) (name : String) (ty dtext : Text) (read : Text → Option α) (default : α)
    (hc : ∃ c ∈ configs, c.name = name.toList ∧ c.ty = ty ∧ c.default = dtext)
    (hread : ∀ v, readable ty v = (read v).isSome) (hdef : read dtext = some default) :
    ∃ x, lookup (defs.map Definition.item) name.toList ty read = some x ∧ Setting env name read default x := by
  obtain ⟨c, c1, c2, c3, c4⟩ := hc
  have hmem : name.toList ∈ defs.map Definition.name :=
    h2.mem_iff.2 (List.mem_map.2 ⟨c, c1, c2⟩)
  obtain ⟨d, d1, d2⟩ := List.mem_map.1 hmem
  obtain ⟨-, hr⟩ := right_readable ht (h3 d d1)
  obtain ⟨c', e1, e2, e3, e4⟩ := h3 d d1
  have hcc : c' = c := List.inj_on_of_nodup_map configs_nodup e1 c1 (by rw [e2, d2, c2])
  subst hcc
  rw [← e3, c3, hread] at hr
  obtain ⟨x, hx⟩ := Option.isSome_iff_exists.1 hr
  refine ⟨x, ?_, ?_⟩
  · rw [lookup, ← d2, named_one defs (h2.nodup_iff.2 configs_nodup) d d1]
    show (if d.ty = ty then read d.value else none) = _
    rw [if_pos (by rw [← e3, c3]), hx]
  · rcases e4 with e4 | ⟨e4, e5⟩
    · exact Or.inl ⟨d.value, d2 ▸ e4, hx⟩
    · refine Or.inr ⟨d2 ▸ e4, ?_⟩
      rw [e5, c4, hdef] at hx
      cases hx; rfl

/-- **C96**.  For every environment that sets constants to expressions of their types, in whatever order the
hash map is iterated: the file the build script writes compiles, and each constant the device uses has the
value the environment sets, and its documented default if it sets none. -/
theorem C96_constants (order : List Build.Config → List Build.Config) (ho : ∀ l, (order l).Perm l)
    (env : List Var) (ht : Typed env) (r : Output) (h : main order env = .ok r) :
    ∃ c, compiled r.data = some c ∧ AsSet env c := by
  obtain ⟨defs, h1, h2, h3⟩ := C53_definitions order ho env r h
  have hu : ∀ v, readable "u16".toList v = (u16Expr v).isSome := fun v => by
    rw [readable, if_pos rfl]
  have hd : ∀ v, readable "Duration".toList v = (durationExpr v).isSome := fun v => by
    rw [readable, if_neg (by decide), if_pos rfl]
  have hb : ∀ v, readable "bool".toList v = (boolExpr v).isSome := fun v => by
    rw [readable, if_neg (by decide), if_neg (by decide), if_pos rfl]
  have hitems : readItems (defs.flatMap Definition.line).length (defs.flatMap Definition.line) =
      some (defs.map Definition.item) :=
    readItems_lines defs (fun d hd => (right_readable ht (h3 d hd)).1) _ (length_lines defs)
  have hall : (defs.map Definition.item).all (fun i => readable i.ty i.value) = true := by
    rw [List.all_map, List.all_eq_true]
    exact fun d hd => (right_readable ht (h3 d hd)).2
  obtain ⟨x1, l1, s1⟩ := lookup_setting h2 h3 ht "MAC_MIN_BE" "u16".toList "0".toList u16Expr 0
    (by decide) hu (by decide)
  obtain ⟨x2, l2, s2⟩ := lookup_setting h2 h3 ht "MAC_MAX_BE" "u16".toList "8".toList u16Expr 8
    (by decide) hu (by decide)
  obtain ⟨x3, l3, s3⟩ := lookup_setting h2 h3 ht "MAC_MAX_CSMA_BACKOFFS" "u16".toList "16".toList u16Expr 16
    (by decide) hu (by decide)
  obtain ⟨x4, l4, s4⟩ := lookup_setting h2 h3 ht "MAC_UNIT_BACKOFF_DURATION" "Duration".toList unitExpr
    durationExpr ⟨320⟩ (by decide) hd (by decide)
  obtain ⟨x5, l5, s5⟩ := lookup_setting h2 h3 ht "MAC_MAX_FRAME_RETIES" "u16".toList "3".toList u16Expr 3
    (by decide) hu (by decide)
  obtain ⟨x6, l6, s6⟩ := lookup_setting h2 h3 ht "MAC_AIFS_PERIOD" "Duration".toList
    "Duration::from_us(1000)".toList durationExpr ⟨1000⟩ (by decide) hd (by decide)
  obtain ⟨x7, l7, s7⟩ := lookup_setting h2 h3 ht "MAC_SIFS_PERIOD" "Duration".toList
    "Duration::from_us(1000)".toList durationExpr ⟨1000⟩ (by decide) hd (by decide)
  obtain ⟨x8, l8, s8⟩ := lookup_setting h2 h3 ht "MAC_PAN_ID" "u16".toList "0xffff".toList u16Expr 0xffff
    (by decide) hu (by decide)
  obtain ⟨x9, l9, s9⟩ := lookup_setting h2 h3 ht "MAC_IMPLICIT_BROADCAST" "bool".toList "false".toList
    boolExpr false (by decide) hb (by decide)
  have hpan : x8 < 65536 := by
    rcases s8 with ⟨v, -, hv⟩ | ⟨-, rfl⟩
    · exact (u16Expr_eq hv).2
    · decide
  refine ⟨⟨x1, x2, x3, x4, x5, x6, x7, BitVec.ofNat 16 x8, x9⟩, ?_, s1, s2, s3, s4, s5, s6, s7, ?_, s9⟩
  · rw [compiled, h1, stripPrefix_append]
    show (readItems _ _ >>= _) = _
    rw [hitems]
    show (if ¬ _ then _ else _) = _
    rw [if_neg (by rw [hall]; decide)]
    show (lookup _ _ _ _ >>= _) = _
    rw [l1]; show (lookup _ _ _ _ >>= _) = _
    rw [l2]; show (lookup _ _ _ _ >>= _) = _
    rw [l3]; show (lookup _ _ _ _ >>= _) = _
    rw [l4]; show (lookup _ _ _ _ >>= _) = _
    rw [l5]; show (lookup _ _ _ _ >>= _) = _
    rw [l6]; show (lookup _ _ _ _ >>= _) = _
    rw [l7]; show (lookup _ _ _ _ >>= _) = _
    rw [l8]; show (lookup _ _ _ _ >>= _) = _
    rw [l9]; rfl
  · rwa [BitVec.toNat_ofNat, Nat.mod_eq_of_lt hpan]

/-- A build whose environment sets no constant makes the default constants. -/
theorem C96_defaults (order : List Build.Config → List Build.Config) (ho : ∀ l, (order l).Perm l)
    (env : List Var) (hs : ∀ name v, ¬ Sets env name v) (r : Output) (h : main order env = .ok r) :
    compiled r.data = some {} := by
  obtain ⟨c, hc, a⟩ := C96_constants order ho env (fun n v hv => absurd hv (hs n v)) r h
  have key : ∀ {α : Type} {name : String} {read : Text → Option α} {d x : α},
      Setting env name read d x → x = d := by
    rintro α name read d x (⟨v, hv, -⟩ | ⟨-, e⟩)
    · exact absurd hv (hs _ _)
    · exact e
  have e1 := key a.minBe
  have e2 := key a.maxBe
  have e3 := key a.maxCsmaBackoffs
  have e4 := key a.unitBackoff
  have e5 := key a.maxFrameRetries
  have e6 := key a.aifs
  have e7 := key a.sifs
  have e8 := key a.panId
  have e9 := key a.implicitBroadcast
  rw [hc]
  cases c
  dsimp only at e1 e2 e3 e4 e5 e6 e7 e8 e9
  have e8' := BitVec.eq_of_toNat_eq (y := (0xffff : BitVec 16)) e8
  subst e1 e2 e3 e4 e5 e6 e7 e8' e9
  rfl

/-- And a build one of whose settings is not an expression of the constant's type (and is no more than one
item) does not compile: no setting is ignored or replaced. -/
theorem C96_rejects (order : List Build.Config → List Build.Config) (ho : ∀ l, (order l).Perm l)
    (env : List Var) (hv : ∀ name v, Sets env name v → ';' ∉ v) (r : Output) (h : main order env = .ok r) :
    (∃ c, compiled r.data = some c) ↔ Typed env := by
  refine ⟨fun ⟨c, hc⟩ => ?_, fun ht => ?_⟩
  · obtain ⟨defs, h1, h2, h3⟩ := C53_definitions order ho env r h
    have hclean : ∀ d ∈ defs, CleanDef d := fun d hd => by
      obtain ⟨c, hc, e1, e2, e3⟩ := h3 d hd
      obtain ⟨k1, k2, k3⟩ := configs_clean c hc
      refine ⟨e1 ▸ k1, e2 ▸ k2, ?_⟩
      rcases e3 with e3 | ⟨-, e3⟩
      · exact hv _ _ e3
      · rw [e3]; exact readable_no_semicolon _ _ k3
    have hitems := readItems_lines defs hclean _ (length_lines defs)
    have hall : (defs.map Definition.item).all (fun i => readable i.ty i.value) = true := by
      rw [compiled, h1, stripPrefix_append] at hc
      replace hc : (readItems _ _ >>= _) = _ := hc
      rw [hitems] at hc
      replace hc : (if ¬ _ then _ else _) = _ := hc
      by_contra hn
      rw [if_pos hn] at hc
      cases hc
    intro name v hset c hc hname
    have hmem : name ∈ defs.map Definition.name := h2.mem_iff.2 (List.mem_map.2 ⟨c, hc, hname⟩)
    obtain ⟨d, d1, d2⟩ := List.mem_map.1 hmem
    obtain ⟨c', e1, e2, e3, e4⟩ := h3 d d1
    have hcc : c' = c := List.inj_on_of_nodup_map configs_nodup e1 hc (by rw [e2, d2, hname])
    subst hcc
    have hval : d.value = v := by
      rcases e4 with e4 | ⟨e4, -⟩
      · have hp := ((C53_aborts order env).1.mp ⟨r, h⟩).2.1
        rw [d2] at e4
        by_contra hne
        rcases List.mem_iff_getElem.1 e4 with ⟨i, hi, hi'⟩
        rcases List.mem_iff_getElem.1 hset with ⟨j, hj, hj'⟩
        rw [List.pairwise_iff_getElem] at hp
        rcases Nat.lt_trichotomy i j with hij | hij | hij
        · exact hp i j hi hj hij ⟨name, _, _, hi', hj'⟩
        · subst hij
          rw [hi'] at hj'
          exact hne (Var.unicode.inj hj').2
        · exact hp j i hj hi hij ⟨name, _, _, hj', hi'⟩
      · rw [d2] at e4; exact absurd hset (e4 v)
    rw [List.all_map, List.all_eq_true] at hall
    have := hall d d1
    rw [e3, ← hval]
    exact this
  · obtain ⟨c, hc, -⟩ := C96_constants order ho env ht r h
    exact ⟨c, hc⟩

/-! ## Expressions -/

theorem digit_value {c : Char} {k : Nat} (h : Spec.digitValue c = some k) : digit c = some k := by
  unfold Spec.digitValue at h
  unfold digit
  split at h
  · rw [if_pos (by assumption)]; exact h
  · split at h
    · rw [if_neg (by assumption), if_pos (by assumption)]; exact h
    · cases h

theorem digit_underscore : Spec.digitValue '_' = none := by decide

theorem digitsFrom_snoc (b : Nat) (t : Text) (c : Char) (acc : Nat) :
    digitsFrom b (t ++ [c]) acc = (digitsFrom b t acc).bind (digitsFrom b [c]) := by
  induction t generalizing acc with
  | nil => rfl
  | cons x t ih =>
    show digitsFrom b (x :: (t ++ [c])) acc = _
    rw [digitsFrom, digitsFrom]
    split
    · exact ih _
    · split
      · rfl
      · split
        · exact ih _
        · rfl

theorem digitsFrom_one {b k : Nat} {c : Char} (hc : Spec.digitValue c = some k) (hk : k < b) (acc : Nat) :
    digitsFrom b [c] acc = some (acc * b + k) := by
  rw [digitsFrom, if_neg (fun e => by rw [e, digit_underscore] at hc; cases hc), digit_value hc]
  dsimp only
  rw [if_pos hk]
  rfl

theorem digitsFrom_numeral {b n : Nat} {s : Text} (h : Spec.Numeral b s n) : digitsFrom b s 0 = some n := by
  induction h with
  | digit c n h hn => rw [digitsFrom_one h hn]; simp
  | more t m c n _ _ h hn ih =>
    rw [digitsFrom_snoc, ih]
    show digitsFrom b [c] m = _
    rw [digitsFrom_one h hn, Nat.mul_comm]

/-- How numbers are set: decimal numerals stand for the number, hexadecimal ones after `0x`; as `u16` those
below 65536, and as a duration `Duration::from_us(...)` of any below 2^63. -/
theorem C96_literals (s : Text) (n : Nat) :
    (Spec.Numeral 10 s n → natLit s = some n) ∧ (Spec.Numeral 16 s n → natLit ("0x".toList ++ s) = some n) ∧
    (natLit s = some n → (u16Expr s = if n < 65536 then some n else none) ∧
      durationExpr ("Duration::from_us(".toList ++ s ++ ")".toList) =
        if n < 2 ^ 63 then some ⟨BitVec.ofNat 64 n⟩ else none) := by
  refine ⟨fun h => ?_, fun h => ?_, fun h => ⟨?_, ?_⟩⟩
  · have hd : ∀ c ∈ s, (Spec.digitValue c).isSome := h.digits
    have hne : s ≠ [] := h.ne_nil
    have hv := digitsFrom_numeral h
    unfold natLit
    split
    · exact absurd (hd 'x' (by simp)) (by decide)
    · rename_i c t _
      rw [if_neg (fun e => ?_), hv]
      have := hd c (by simp)
      rw [e, digit_underscore] at this
      cases this
    · exact absurd rfl hne
  · have hd : ∀ c ∈ s, (Spec.digitValue c).isSome := h.digits
    show natLit ('0' :: 'x' :: s) = _
    rw [natLit, if_neg, digitsFrom_numeral h]
    intro e
    cases s with
    | nil => exact h.ne_nil rfl
    | cons c s =>
      have e1 : c = '_' := by
        rw [List.all_cons, Bool.and_eq_true] at e
        exact of_decide_eq_true e.1
      have := hd c (by simp)
      rw [e1, digit_underscore] at this
      cases this
  · rw [u16Expr, h]
  · have hne : ¬ "Duration::from_us(".toList ++ s ++ ")".toList = unitExpr := by
      intro e
      have e2 : unitExpr = "Duration::from_us(".toList ++
          "(UNIT_BACKOFF_PERIOD * SYMBOL_RATE_INV_US) as i64".toList ++ ")".toList := by decide
      rw [e2, List.append_left_inj, List.append_right_inj] at e
      rw [e] at h
      exact absurd h (by rw [show natLit "(UNIT_BACKOFF_PERIOD * SYMBOL_RATE_INV_US) as i64".toList = none by decide]; nofun)
    rw [durationExpr, if_neg hne, List.append_assoc, stripPrefix_append]
    dsimp only
    rw [if_pos (by simp), show (s ++ ")".toList).dropLast = s from List.dropLast_concat, h]
    rfl

/-! ## A device with the defaults -/

/-- The frame is for a device with the default constants: it has addressing fields; its destination PAN id, if
it has one, is the broadcast PAN id; and its destination is the broadcast address or one of the device's. -/
def DefaultMine (hw : Arr 8) (h : Spec.Header) : Prop :=
  ∃ a, h.addressing = some a ∧ (a.dstPan = none ∨ a.dstPan = some 0xffff) ∧
    (a.dst = .short ⟨[0xff, 0xff], rfl⟩ ∨ a.dst = .short (Spec.shortOf hw) ∨ a.dst = .extended hw)

/-- It asks for an acknowledgement, and can be acknowledged: not to the broadcast address, and with a sequence
number. -/
def DefaultAsks (h : Spec.Header) (seq : Byte) : Prop :=
  h.fc.ackRequest = true ∧ (∃ a, h.addressing = some a ∧ a.dst ≠ .short ⟨[0xff, 0xff], rfl⟩) ∧ h.seq = some seq

/-- What a device with the default configuration and constants does with a buffer its radio received: it drops
it, unless it holds a frame for it that is no acknowledgement; it delivers such a frame, and acknowledges it,
half a millisecond later and on channel 26, iff it asks for it. -/
inductive DefaultReceived (F : RadioFormat) (hw : Arr 8) : List Spec.RxEvent → Prop where
  | dropped (b : Arr 128) : (∀ h, Spec.Holds F b.1 h → ¬ (DefaultMine hw h ∧ h.fc.frameType ≠ .ack)) →
      DefaultReceived F hw [.got b]
  | delivered (b : Arr 128) (h : Spec.Header) : Spec.Holds F b.1 h → DefaultMine hw h → h.fc.frameType ≠ .ack →
      (∀ seq, ¬ DefaultAsks h seq) → DefaultReceived F hw [.got b, .deliver ⟨b, true⟩]
  | acknowledged (b : Arr 128) (h : Spec.Header) (seq : Byte) (a : Arr 128) (l : List Spec.RxEvent) :
      Spec.Holds F b.1 h → DefaultMine hw h → h.fc.frameType ≠ .ack → DefaultAsks h seq →
      Spec.CarriesAck F seq a →
      Interleave [.pause 500, .send a ⟨.c26, false⟩] [.deliver ⟨b, true⟩] l →
      DefaultReceived F hw (.got b :: l)

theorem passedOn_default (D : Device) (h1 : D.config = {}) (h2 : D.consts = {}) (h : Spec.Header) :
    Spec.PassedOn D h ↔ DefaultMine D.hardwareAddress h ∧ h.fc.frameType ≠ .ack := by
  rw [Spec.PassedOn, h1, h2]
  refine and_congr_left fun _ => ?_
  rw [Spec.ForUs, DefaultMine]
  cases h.addressing with
  | none => simp
  | some a =>
    simp only [Option.some.injEq, exists_eq_left', Spec.AddrOk, or_false, reduceCtorEq]
    refine and_congr_left fun _ => ?_
    cases a.dstPan with
    | none => simp [Spec.PanOk]
    | some p => simp [Spec.PanOk]

theorem acks_default (h : Spec.Header) (seq : Byte) :
    (Spec.AcksFrame {} h ∧ h.seq = some seq) ↔ DefaultAsks h seq := by
  simp [Spec.AcksFrame, DefaultAsks, Spec.NotBroadcast, and_assoc]

theorem _root_.Dot15d4.Spec.ReceivedOne.default {D : Device} (h1 : D.config = {}) (h2 : D.consts = {}) {l : List Spec.RxEvent}
    (h : Spec.ReceivedOne D l) : DefaultReceived D.format D.hardwareAddress l := by
  cases h with
  | dropped b h => exact .dropped b fun x hx hp => h x hx ((passedOn_default D h1 h2 x).2 hp)
  | delivered b x hx hp hn =>
    obtain ⟨p1, p2⟩ := (passedOn_default D h1 h2 x).1 hp
    refine .delivered b x hx p1 p2 fun seq hs => hn ?_
    obtain ⟨k1, k2⟩ := (acks_default x seq).2 hs
    rw [h1, k2]
    exact ⟨k1, rfl⟩
  | acknowledged b x seq a l hx hp ha hs hc hi =>
    obtain ⟨p1, p2⟩ := (passedOn_default D h1 h2 x).1 hp
    rw [h1] at ha hi
    rw [h2] at hi
    exact .acknowledged b x seq a l hx p1 p2 ((acks_default x seq).1 ⟨ha, hs⟩) hc hi

theorem default_sane (D : Device) (hF : D.format.Lawful) (h2 : D.consts = {}) : Sane D :=
  ⟨hF, by rw [h2]; decide, by rw [h2]; decide, by rw [h2]; decide, by rw [h2]; decide⟩

/-- **C96**, receiving.  At every moment of every execution of a device with the default configuration and
constants, it has dealt with the buffers its radio received as `DefaultReceived` says, one after the other, the
last one perhaps not completely; and the radio was never used on another channel than 26. -/
theorem C96_receives (D : Device) (hF : D.format.Lawful) (h1 : D.config = {}) (h2 : D.consts = {})
    {t : List (Ev CallAns)} {o : Csma.Fin Empty} (he : Exec (runDevice D) t o) :
    (∃ rounds last, t.filterMap Spec.rxEvent = List.flatten rounds ++ last ∧
      (∀ r ∈ rounds, DefaultReceived D.format D.hardwareAddress r) ∧
      (last = [] ∨ ∃ rest, DefaultReceived D.format D.hardwareAddress (last ++ rest))) ∧
    ∀ ev ∈ t, (∀ i b cfg, ev.eff = (i, .radioTransmit b cfg) → cfg.channel = .c26) ∧
      (∀ i cfg, ev.eff = (i, .radioReceive cfg) → cfg.channel = .c26) := by
  constructor
  · obtain ⟨rounds, last, e, hr, hl⟩ := C44_device D (default_sane D hF h2) he
    exact ⟨rounds, last, e, fun r hr' => (hr r hr').default h1 h2,
      hl.imp id fun ⟨rest, h⟩ => ⟨rest, h.default h1 h2⟩⟩
  · intro ev hev
    obtain ⟨k1, k2⟩ := C59_channel D he ev hev
    rw [h1] at k1 k2
    exact ⟨fun i b cfg e => (k1 i b cfg e).1, k2⟩

/-- A device with the defaults asks for an acknowledgement of the frame: it is a data frame or a MAC command,
it has addressing fields, and its destination is not the broadcast address. -/
def DefaultWants (h : Spec.Header) : Prop :=
  (h.fc.frameType = .data ∨ h.fc.frameType = .macCommand) ∧
    ∃ a, h.addressing = some a ∧ a.dst ≠ .short ⟨[0xff, 0xff], rfl⟩

/-- What a device with the defaults makes of a package before it transmits it: of a frame it sets the ack
request bit if it wants an acknowledgement, and replaces the source PAN id, if there is one, by the broadcast PAN
id; what is no frame it leaves as it is.  `seq` is the sequence number whose acknowledgement it awaits. -/
inductive DefaultPrepared (F : RadioFormat) (buffer b : Arr 128) : Option Byte → Prop where
  | frame (h : Spec.Header) (n : Nat) (o0 o1 : Byte) (want : Bool) :
      h.WellFormed → Acceptable h.bytes → F.frameLen buffer.1 = some n → F.data buffer.1 n = h.bytes →
      (want = true ↔ DefaultWants h) →
      Spec.decodeFc o0 o1 = { h.fc with ackRequest := h.fc.ackRequest || want } →
      b.1 = F.putData buffer.1 n ({ h with
        o0 := o0, o1 := o1
        addressing := h.addressing.map fun a => { a with srcPan := a.srcPan.map fun _ => 0xffff } }
          : Spec.Header).bytes →
      DefaultPrepared F buffer b (if want then h.seq else none)
  | other : (∀ h, ¬ Spec.Holds F buffer.1 h) → b = buffer → DefaultPrepared F buffer b none

/-- A pause a device with the defaults makes for a package: a backoff of less than 256 periods of 320 us, 2288 us
for an acknowledgement, or 1000 us before a retransmission. -/
def DefaultPause (us : BitVec 32) : Prop :=
  (∃ m, m < 256 ∧ us.toNat = 320 * m) ∨ us = 2288 ∨ us = 1000

theorem wants_default (h : Spec.Header) : Spec.WantsAck {} h ↔ DefaultWants h := by
  simp [Spec.WantsAck, DefaultWants, Spec.NotBroadcast]

theorem overwrite_default (D : Device) (h1 : D.config = {}) (h2 : D.consts = {}) (h : Spec.Header) :
    h.overwrite D = { h with addressing := h.addressing.map fun a =>
      { a with srcPan := a.srcPan.map fun _ => 0xffff } } := by
  rw [Spec.Header.overwrite, h1, h2]
  congr 2
  funext a
  cases a with
  | mk dp d sp s =>
    cases dp <;> cases sp <;> rfl

theorem prepared_default {D : Device} (h1 : D.config = {}) (h2 : D.consts = {}) {buffer b : Arr 128}
    {seq : Option Byte} {r : List Spec.TxEvent} (h : Spec.Prepared D buffer b seq r) :
    DefaultPrepared D.format buffer b seq := by
  cases h with
  | frame h n o0 o1 want hw ha hn hd hwant hfc _ hb =>
    rw [h1, wants_default] at hwant
    rw [overwrite_default D h1 h2] at hb
    exact .frame h n o0 o1 want hw ha hn hd hwant hfc hb
  | noDeviceFrame hn hb =>
    refine .other (fun h hh => ?_) hb
    obtain ⟨-, -, n, hn', -⟩ := hh
    rw [hn] at hn'; cases hn'
  | noIeeeFrame n hn ha hb =>
    refine .other (fun h hh => ?_) hb
    obtain ⟨-, hacc, m, hm, hd⟩ := hh
    rw [hn] at hm; cases hm
    exact ha (hd ▸ hacc)

/-- The event is no pause, or one a device with the defaults makes. -/
def PausesDefault : Spec.TxEvent → Prop
  | .pause us => DefaultPause us
  | _ => True

theorem backoff_default (k : Nat) (r : BitVec 32) : DefaultPause (Spec.backoffPause {} k r) := by
  obtain ⟨e1, -⟩ := backoffPause_value {} (by decide) (by decide) k r
  refine Or.inl ⟨r.toNat % 2 ^ min (0 + k) 8, ?_, ?_⟩
  · refine Nat.lt_of_lt_of_le (Nat.mod_lt _ (Nat.two_pow_pos _)) ?_
    exact Nat.pow_le_pow_right (by decide) (Nat.min_le_right _ 8)
  · have e : (({} : Consts).unitBackoff.us.toInt) = 320 := by decide
    rw [e] at e1
    exact_mod_cast e1

theorem cca_default {ch : PhyChannel} {b : Arr 128} {i : Nat} {held : Bool} {l : List Spec.TxEvent} {res : Bool}
    (h : Spec.CcaLog {} ch b i held l res) : ∀ e ∈ l, PausesDefault e := by
  have ht : ∀ held, ∀ e ∈ Spec.taking held, PausesDefault e := by
    intro held e he
    cases held <;> simp [Spec.taking] at he
    rw [he]; trivial
  induction h with
  | @sent i held hi =>
    intro e he
    simp only [List.mem_append, List.mem_cons, List.not_mem_nil, or_false] at he
    rcases he with he | rfl | rfl
    · exact ht _ e he
    · trivial
    · trivial
  | @failed held =>
    intro e he
    simp only [List.mem_append, List.mem_cons, List.not_mem_nil, or_false] at he
    rcases he with he | rfl | rfl | rfl
    · exact ht _ e he
    · trivial
    · trivial
    · trivial
  | @again i held r l l' res hi hl _ ih =>
    intro e he
    simp only [List.mem_append, List.mem_cons, List.not_mem_nil, or_false] at he
    rcases he with ((he | rfl | rfl | rfl) | he) | he
    · exact ht _ e he
    · trivial
    · trivial
    · trivial
    · refine interleave_forall (S := PausesDefault) hl ?_ ?_ e he
      · intro e he
        simp only [List.mem_cons, List.not_mem_nil, or_false] at he
        rcases he with rfl | rfl
        · trivial
        · exact backoff_default _ _
      · intro e he
        simp only [List.mem_cons, List.not_mem_nil, or_false] at he
        subst he; trivial
    · exact ih e he

theorem listening_default {F : RadioFormat} {ch : PhyChannel} {s : Byte} {l : List Spec.TxEvent} {res : Bool}
    (h : Spec.Listening F ch s l res) : ∀ e ∈ l, PausesDefault e := by
  induction h with
  | acked _ => intro e he; simp at he; rcases he with rfl | rfl <;> trivial
  | still => intro e he; simp at he; subst he; trivial
  | more _ _ ih =>
    intro e he
    simp only [List.mem_cons] at he
    rcases he with rfl | rfl | he
    · trivial
    · trivial
    · exact ih e he

theorem ack_default {F : RadioFormat} {ch : PhyChannel} {s : Byte} {l : List Spec.TxEvent} {res : Bool}
    (h : Spec.AckLog {} F ch s l res) : ∀ e ∈ l, PausesDefault e := by
  have hw : PausesDefault (.pause (Spec.ackWait {})) := Or.inr (Or.inl (by decide))
  cases h with
  | acked h1 h2 h3 =>
    refine interleave_forall h3 (listening_default h1) ?_
    rcases h2 with rfl | rfl
    · intro e he; cases he
    · intro e he
      simp only [List.mem_cons, List.not_mem_nil, or_false] at he
      subst he; exact hw
  | timeout h1 h3 =>
    refine interleave_forall h3 (listening_default h1) ?_
    intro e he
    simp only [List.mem_cons, List.not_mem_nil, or_false] at he
    subst he; exact hw

theorem send_default {D : Device} (h2 : D.consts = {}) {b : Arr 128} {seq : Option Byte} {i : Nat}
    {l : List Spec.TxEvent} {o : Spec.TxOutcome} (h : Spec.SendLog D b seq i l o) :
    ∀ e ∈ l, PausesDefault e := by
  have hr : PausesDefault (.pause (Spec.retryPause {})) := Or.inr (Or.inr (by decide))
  induction h with
  | ccaFailed hc =>
    rw [h2] at hc
    simp only [List.forall_mem_append]
    exact ⟨cca_default hc, by simp [PausesDefault]⟩
  | sent _ hc =>
    rw [h2] at hc
    simp only [List.forall_mem_append]
    exact ⟨cca_default hc, by simp [PausesDefault]⟩
  | acked _ hc ha =>
    rw [h2] at hc ha
    simp only [List.forall_mem_append]
    exact ⟨⟨cca_default hc, ack_default ha⟩, by simp [PausesDefault]⟩
  | ackFailed _ hc ha =>
    rw [h2] at hc ha ⊢
    simp only [List.forall_mem_append]
    refine ⟨⟨cca_default hc, ack_default ha⟩, ?_⟩
    intro e he
    simp only [List.mem_cons, List.not_mem_nil, or_false] at he
    rcases he with rfl | rfl | rfl
    · trivial
    · exact hr
    · trivial
  | retry _ hc ha _ _ ih =>
    rw [h2] at hc ha ⊢
    simp only [List.forall_mem_append]
    refine ⟨⟨⟨cca_default hc, ack_default ha⟩, ?_⟩, ih⟩
    intro e he
    simp only [List.mem_cons, List.not_mem_nil, or_false] at he
    rcases he with rfl | rfl | rfl
    · trivial
    · exact hr
    · trivial

/-- A report of failure is the last thing done for a package. -/
theorem send_last {D : Device} {b : Arr 128} {seq : Option Byte} {i : Nat} {l : List Spec.TxEvent}
    {o : Spec.TxOutcome} (h : Spec.SendLog D b seq i l o) {e : DriverError} (ho : o.reported = [e]) :
    ∃ m, l = m ++ [.report e] := by
  induction h with
  | ccaFailed _ => cases ho; exact ⟨_, rfl⟩
  | sent _ _ => cases ho
  | acked _ _ _ => cases ho
  | @ackFailed l l' s _ _ _ =>
    cases ho
    exact ⟨l ++ l' ++ [.unlocked, .pause (Spec.retryPause D.consts)], by
      simp only [List.append_assoc, List.cons_append, List.nil_append]⟩
  | @retry i l l' s l'' o _ _ _ _ _ ih =>
    obtain ⟨m, rfl⟩ := ih ho
    exact ⟨l ++ l' ++ [.unlocked, .pause (Spec.retryPause D.consts), .report (.ackRetry i)] ++ m, by
      simp only [List.append_assoc]⟩

/-- The last 16 assessments before a report that the channel was never clear found it busy. -/
theorem send_busy {D : Device} (h2 : D.consts = {}) {b : Arr 128} {seq : Option Byte} {i : Nat}
    {l : List Spec.TxEvent} {o : Spec.TxOutcome} (h : Spec.SendLog D b seq i l o) (ho : o = .ccaFailed) :
    List.replicate 16 false <:+ Spec.results l := by
  induction h with
  | @ccaFailed i l hc =>
    obtain ⟨n, -, g2, -, g4, -⟩ := CcaLog.facts hc
    rw [results_append, g4]
    have hn := g2 rfl
    rw [h2] at hn
    have : n = 15 := by
      replace hn : 1 + n = 16 := hn
      omega
    subst this
    exact List.suffix_refl _
  | sent _ _ => cases ho
  | acked _ _ _ => cases ho
  | ackFailed _ _ _ => cases ho
  | retry _ _ _ _ _ ih =>
    rw [results_append]
    exact (ih ho).trans (List.suffix_append _ _)

/-- **C96**, transmitting.  At every moment of every execution of a device with the default configuration and
constants: it has dealt with the packages it was given one after the other, the last one perhaps not completely,
and for each: everything it transmitted is the prepared package, on channel 26 and after a clear channel
assessment; at most three of at most 48 attempts succeeded, exactly three if it
reports that no acknowledgement came, and it reports that the channel is busy only after 16 assessments in a row
that found it so; it paused only as `DefaultPause` says. -/
theorem C96_transmits (D : Device) (hF : D.format.Lawful) (h1 : D.config = {}) (h2 : D.consts = {})
    {t : List (Ev CallAns)} {o : Csma.Fin Empty} (he : Exec (runDevice D) t o) :
    ∃ packages last, t.filterMap Spec.txEvent = List.flatten packages ++ last ∧
      ∀ l, l ∈ packages ∨ l = last → l = [] ∨ ∃ p b seq,
        Spec.fetches l = [p] ∧ l.head? = some (.fetched p) ∧ DefaultPrepared D.format p.buffer b seq ∧
        (∀ x ∈ Spec.attempts l, x = (b, ⟨.c26, true⟩)) ∧ (Spec.attempts l).length ≤ 48 ∧
        (Spec.results l).count true ≤ (if seq = none then 1 else 3) ∧
        (.ackFailed ∈ Spec.reports l → (Spec.results l).count true = 3) ∧
        (.ccaFailed ∈ Spec.reports l → List.replicate 16 false <:+ Spec.results l) ∧
        ∀ us ∈ Spec.pauses l, DefaultPause us := by
  obtain ⟨packages, last, e, hp, hl⟩ := C48_device D (default_sane D hF h2) he
  refine ⟨packages, last, e, ?_⟩
  have key : ∀ l o, Spec.PackageLog D l o → ∀ l', l' <+: l → l' = [] ∨ ∃ p b seq,
        Spec.fetches l' = [p] ∧ l'.head? = some (.fetched p) ∧ DefaultPrepared D.format p.buffer b seq ∧
        (∀ x ∈ Spec.attempts l', x = (b, ⟨.c26, true⟩)) ∧ (Spec.attempts l').length ≤ 48 ∧
        (Spec.results l').count true ≤ (if seq = none then 1 else 3) ∧
        (.ackFailed ∈ Spec.reports l' → (Spec.results l').count true = 3) ∧
        (.ccaFailed ∈ Spec.reports l' → List.replicate 16 false <:+ Spec.results l') ∧
        ∀ us ∈ Spec.pauses l', DefaultPause us := by
    intro l o h l' hpre
    obtain ⟨p, b, seq, comp, n, f1, f2, f3, f4, f5, f6, f7, f8, -, f10, -, f9, f11⟩ :=
      C48_package (default_sane D hF h2).retries h
    have hpa : ∀ us ∈ Spec.pauses l, DefaultPause us := by
      cases h with
      | mk p' b' seq' reps m o hprep hs =>
        have h3 := send_default h2 hs
        intro us hus
        rw [Spec.pauses, List.mem_filterMap] at hus
        obtain ⟨ev, hev, hus⟩ := hus
        cases ev <;> simp at hus
        subst hus
        simp only [List.cons_append, List.mem_cons, List.mem_append, reduceCtorEq, false_or] at hev
        rcases hev with hev | hev
        · cases hprep <;> simp at hev
        · exact h3 _ hev
    have hend : ∀ e, Spec.terminal e = true → e ∈ Spec.reports l' → o.reported = [e] ∧ l' = l := by
      intro e ht hm
      obtain ⟨rest, hrest⟩ := hpre
      have hin : e ∈ o.reported := by
        rw [← f10, List.mem_filter]
        refine ⟨?_, ht⟩
        rw [← hrest, reports_append]
        exact List.mem_append_left _ hm
      have ho : o.reported = [e] := by
        cases o <;> simp [Spec.TxOutcome.reported] at hin <;> subst hin <;> rfl
      refine ⟨ho, ?_⟩
      rcases List.eq_nil_or_concat rest with rfl | ⟨rest, z, rfl⟩
      · simpa using hrest
      · exfalso
        have hz : z = .report e := by
          cases h with
          | mk p' b' seq' reps m o hprep hs =>
            obtain ⟨m', rfl⟩ := send_last hs ho
            have := congrArg List.getLast? hrest
            rw [← List.append_assoc, List.getLast?_concat, List.concat_eq_append,
              ← List.append_assoc, List.getLast?_concat] at this
            exact Option.some.inj this
        subst hz
        rw [ho, ← hrest, reports_append, List.concat_eq_append, reports_append, List.filter_append,
          List.filter_append] at f10
        have hl := congrArg List.length f10
        have hp1 : 1 ≤ ((Spec.reports l').filter Spec.terminal).length :=
          List.length_pos_of_mem (List.mem_filter.2 ⟨hm, ht⟩)
        have hp2 : ((Spec.reports [Spec.TxEvent.report e]).filter Spec.terminal).length = 1 := by
          simp [Spec.reports, ht]
        simp only [List.length_append, List.length_singleton] at hl
        omega
    have hacks : .ackFailed ∈ Spec.reports l' → (Spec.results l').count true = 3 := by
      intro hm
      obtain ⟨e1, rfl⟩ := hend _ rfl hm
      have : o = .ackFailed := by cases o <;> simp [Spec.TxOutcome.reported] at e1 ⊢
      subst this
      rw [f7, if_neg (by decide), f11.1, h2]
    have hbusy : .ccaFailed ∈ Spec.reports l' → List.replicate 16 false <:+ Spec.results l' := by
      intro hm
      obtain ⟨e1, rfl⟩ := hend _ rfl hm
      cases h with
      | mk p' b' seq' reps m o hprep hs =>
        have : o = .ccaFailed := by cases o <;> simp [Spec.TxOutcome.reported] at e1 ⊢
        rw [results_append]
        exact (send_busy h2 hs this).trans (List.suffix_append _ _)
    cases l' with
    | nil => exact Or.inl rfl
    | cons x l' =>
      obtain ⟨rest, hrest⟩ := hpre
      have hx : x = .fetched p := by
        rw [← hrest] at f2
        simpa using f2
      subst hx
      rw [h1] at f5
      rw [h2] at f4 f6
      refine Or.inr ⟨p, b, seq, ?_, rfl, prepared_default h1 h2 f3, ?_, ?_, ?_, hacks, hbusy, ?_⟩
      · rw [← hrest, Spec.fetches, List.filterMap_append, List.filterMap_cons] at f1
        simp only [List.cons_append, List.cons.injEq, true_and, List.append_eq_nil_iff] at f1
        rw [Spec.fetches, List.filterMap_cons]
        simp only [f1.1]
      · intro y hy
        refine f5 y ?_
        rw [← hrest, Spec.attempts, List.filterMap_append]
        exact List.mem_append_left _ hy
      · refine Nat.le_trans ?_ f6
        rw [← hrest, Spec.attempts, Spec.attempts, List.filterMap_append, List.length_append]
        exact Nat.le_add_right _ _
      · have hcount : (Spec.results (Spec.TxEvent.fetched p :: l')).count true ≤ (Spec.results l).count true := by
          rw [← hrest, Spec.results, Spec.results, List.filterMap_append, List.count_append]
          exact Nat.le_add_right _ _
        rw [f7] at hcount
        replace f4 : n ≤ 3 := f4
        split
        · rename_i hs
          have := (f9 hs).1
          split at hcount <;> omega
        · split at hcount <;> omega
      · intro us hus
        refine hpa us ?_
        rw [← hrest, Spec.pauses, List.filterMap_append]
        exact List.mem_append_left _ hus
  rintro l (hm | rfl)
  · obtain ⟨o, ho⟩ := hp l hm
    exact key l o ho l (List.prefix_refl _)
  · rcases hl with hl | ⟨rest, o, ho⟩
    · exact Or.inl hl
    · exact key _ o ho l ⟨rest, rfl⟩

/-! ## Examples -/

/-- An environment that sets three constants. -/
def tunedBuild : List Var := [.unicode "PATH".toList "/bin".toList,
  .unicode "DOT15D4_MAC_MAX_BE".toList "5".toList, .unicode "OUT_DIR".toList "/out".toList,
  .unicode "DOT15D4_MAC_PAN_ID".toList "0xabcd".toList,
  .unicode "DOT15D4_MAC_AIFS_PERIOD".toList "Duration::from_us(2_500)".toList]

set_option maxRecDepth 100000 in
/-- Non-vacuity for `C96_constants`: its hypotheses hold, and these are the constants. -/
example : Typed tunedBuild ∧ ∃ r, main id tunedBuild = .ok r ∧
    compiled r.data = some { maxBe := 5, panId := 0xabcd, aifs := ⟨2500⟩ } := by
  refine ⟨?_, _, rfl, rfl⟩
  intro name v hv c hc hn
  simp only [Sets, tunedBuild, List.mem_cons, List.not_mem_nil, or_false, Var.unicode.injEq] at hv
  have hne : ∀ t u : Text, variableOf name = t → t.head? ≠ some 'D' → False := by
    intro t _ e h
    rw [← e] at h
    exact h rfl
  rcases hv with ⟨h, -⟩ | ⟨h, rfl⟩ | ⟨h, -⟩ | ⟨h, rfl⟩ | ⟨h, rfl⟩
  · exact (hne _ [] h (by decide)).elim
  · have : name = "MAC_MAX_BE".toList := List.append_cancel_left (as := "DOT15D4_".toList) h
    subst this
    revert c
    decide
  · exact (hne _ [] h (by decide)).elim
  · have : name = "MAC_PAN_ID".toList := List.append_cancel_left (as := "DOT15D4_".toList) h
    subst this
    revert c
    decide
  · have : name = "MAC_AIFS_PERIOD".toList := List.append_cancel_left (as := "DOT15D4_".toList) h
    subst this
    revert c
    decide

set_option maxRecDepth 100000 in
/-- Non-vacuity for `C96_defaults` and `C96_rejects`: nothing set; a number too large for its type. -/
example : (∃ r, main id [.unicode "OUT_DIR".toList "/out".toList] = .ok r ∧ compiled r.data = some {}) ∧
    ∃ r, main id [.unicode "OUT_DIR".toList "/out".toList,
      .unicode "DOT15D4_MAC_MAX_BE".toList "65536".toList] = .ok r ∧ compiled r.data = none :=
  ⟨⟨_, rfl, rfl⟩, _, rfl, rfl⟩

/-- Numerals with underscores and capitals; what is none. -/
example : natLit "10_000".toList = some 10000 ∧ natLit "0xAb_cD".toList = some 0xabcd ∧
    natLit "0x_".toList = none ∧ natLit "12a".toList = none ∧ natLit "_1".toList = none := by decide

/-- Non-vacuity for `C96_receives` and `C96_transmits`: the example device has the defaults. -/
example : exampleDevice.format.Lawful ∧ exampleDevice.config = {} ∧ exampleDevice.consts = {} :=
  ⟨lengthFormat_lawful, rfl, rfl⟩

set_option maxRecDepth 20000 in
/-- A frame arrives; in another execution it is given a package. -/
example : ∃ t u, Exec (runDevice exampleDevice) t .pending ∧ Exec (runDevice exampleDevice) u .pending ∧
    t.filterMap Spec.rxEvent = [.got askingFrame, .pause 500,
      .send (padded [3, 2, 0x10, 9]) ⟨.c26, false⟩, .deliver ⟨askingFrame, true⟩] ∧
    u.filterMap Spec.txEvent = [.fetched examplePackage, .locked, .attempt askingFrame ⟨.c26, true⟩,
      .result true, .listen ⟨.c26⟩, .heard true (padded [3, 2, 0x10, 9]), .unlocked] := by
  obtain ⟨t, h1, h2⟩ := poll_outcome scripted 5 (runDevice exampleDevice)
    ⟨none, some askingFrame, none, true⟩ []
  obtain ⟨u, k1, k2⟩ := poll_outcome scripted 5 (runDevice exampleDevice)
    ⟨some examplePackage, none, some (padded [3, 2, 0x10, 9]), true⟩ []
  rw [List.nil_append] at h1 k1
  refine ⟨t, u, outcome_pending h2, outcome_pending k2, ?_, ?_⟩
  · rw [← h1]; rfl
  · rw [← k1]; rfl

end Dot15d4.Props
