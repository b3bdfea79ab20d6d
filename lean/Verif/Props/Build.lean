import Verif.Model.Build
import Mathlib.Data.List.Nodup
import Mathlib.Data.List.Perm.Basic

/-! # C53: configuration at build time -/

namespace Dot15d4.Props
open Out Build

/-! ## What the property says -/

/-- The name of the environment variable for a configuration constant. -/
def variableOf (name : Text) : Text := "DOT15D4_".toList ++ name

/-- The environment sets the configuration constant `name` to `value`. -/
def Sets (env : List Var) (name value : Text) : Prop :=
  Var.unicode (variableOf name) value ∈ env

/-- Two entries of the environment set the same configuration constant. -/
def SameSetting (a b : Var) : Prop :=
  ∃ name v w, a = .unicode (variableOf name) v ∧ b = .unicode (variableOf name) w

/-- A definition of a constant in the generated file. -/
structure Definition where
  name : Text
  ty : Text
  value : Text

/-- The line of Rust a definition is. -/
def Definition.line (d : Definition) : Text :=
  "pub const ".toList ++ d.name ++ ": ".toList ++ d.ty ++ " = ".toList ++ d.value ++ ";\n".toList

/-- The definition is right for the environment: one of the documented constants with its type, the value
the environment gives, the default if it gives none. -/
def RightDefinition (env : List Var) (d : Definition) : Prop :=
  ∃ c ∈ configs, c.name = d.name ∧ c.ty = d.ty ∧
    (Sets env d.name d.value ∨ (∀ v, ¬ Sets env d.name v) ∧ d.value = c.default)

/-! ## Lemmas -/

theorem stripPrefix_iff (p s n : Text) : stripPrefix p s = some n ↔ s = p ++ n := by
  induction p generalizing s with
  | nil => simp [stripPrefix]
  | cons a p ih =>
    cases s with
    | nil => simp [stripPrefix]
    | cons c s =>
      simp only [stripPrefix]
      split
      · rename_i h; subst h; simp [ih]
      · rename_i h; simp; intro h'; exact absurd h'.symm h

theorem stripPrefix_none {p s : Text} (h : stripPrefix p s = none) (n : Text) : s ≠ p ++ n := by
  intro he
  rw [(stripPrefix_iff p s n).mpr he] at h
  cases h

theorem strip_iff (s n : Text) : stripPrefix varPrefix s = some n ↔ s = variableOf n := stripPrefix_iff ..

theorem strip_none {s : Text} (h : stripPrefix varPrefix s = none) (n : Text) : s ≠ variableOf n :=
  stripPrefix_none h n

theorem variableOf_injective {a b : Text} (h : variableOf a = variableOf b) : a = b :=
  List.append_cancel_left h

attribute [local irreducible] variableOf varPrefix

theorem removeEntry_some {l : List Config} {n : Text} {c : Config} {r : List Config}
    (h : removeEntry l n = some (c, r)) : c.name = n ∧ l.Perm (c :: r) := by
  induction l generalizing c r with
  | nil => cases h
  | cons a l ih =>
    simp only [removeEntry] at h
    split at h
    · cases h; rename_i h; exact ⟨h, .refl _⟩
    · cases hr : removeEntry l n with
      | none => rw [hr] at h; cases h
      | some q =>
        rw [hr] at h
        cases h
        obtain ⟨h1, h2⟩ := ih hr
        exact ⟨h1, (h2.cons a).trans (.swap _ _ _)⟩

theorem removeEntry_none {l : List Config} {n : Text} (h : removeEntry l n = none) :
    ∀ c ∈ l, c.name ≠ n := by
  induction l with
  | nil => simp
  | cons a l ih =>
    simp only [removeEntry] at h
    split at h
    · cases h
    · rename_i hn
      simp only [Option.map_eq_none_iff] at h
      intro c hc
      rcases List.mem_cons.mp hc with rfl | hc
      · exact hn
      · exact ih h c hc

theorem consume_ok {cfg cfg' : List Config} {data data' : Text} {vars : List Var}
    (hn : (cfg.map Config.name).Nodup) (h : consume cfg data vars = .ok (cfg', data')) :
    ∃ defs : List Definition, data' = data ++ defs.flatMap Definition.line ∧ Var.other ∉ vars ∧
      (defs.map Definition.name ++ cfg'.map Config.name).Perm (cfg.map Config.name) ∧
      (∀ d ∈ defs, (∃ c ∈ cfg, c.name = d.name ∧ c.ty = d.ty) ∧ Sets vars d.name d.value) ∧
      (∀ n v, Sets vars n v → ∃ d ∈ defs, d.name = n) ∧ (∀ c ∈ cfg', c ∈ cfg) ∧
      vars.Pairwise (fun a b => ¬ SameSetting a b) := by
  induction vars generalizing cfg data with
  | nil =>
    cases h
    exact ⟨[], by simp, by simp, by simp, by simp, by simp [Sets], fun _ h => h, .nil⟩
  | cons a vars ih =>
    cases a with
    | other => simp [consume] at h
    | unicode var value =>
      simp only [consume] at h
      cases hs : stripPrefix varPrefix var with
      | none =>
        rw [hs] at h
        obtain ⟨defs, h1, h2, h3, h4, h5, h6, h7⟩ := ih hn h
        have hno : ∀ n, var ≠ variableOf n := strip_none hs
        refine ⟨defs, h1, by simp [h2], h3, fun d hd => ⟨(h4 d hd).1, .tail _ (h4 d hd).2⟩,
          fun n v hv => ?_, h6, .cons ?_ h7⟩
        · rcases List.mem_cons.mp hv with he | hv
          · cases he; exact absurd rfl (hno n)
          · exact h5 n v hv
        · rintro b hb ⟨n, v, w, he, -⟩
          cases he; exact absurd rfl (hno n)
      | some name =>
        rw [hs] at h
        have hvar : var = variableOf name := (strip_iff ..).mp hs
        cases hr : removeEntry cfg name with
        | none => simp only [hr] at h; cases h
        | some q =>
          obtain ⟨c, rest⟩ := q
          simp only [hr] at h
          obtain ⟨hc, hp⟩ := removeEntry_some hr
          have hpn := hp.map Config.name
          have hn' : ((c :: rest).map Config.name).Nodup := (hpn.nodup_iff).mp hn
          rw [List.map_cons, List.nodup_cons] at hn'
          obtain ⟨defs, h1, h2, h3, h4, h5, h6, h7⟩ := ih hn'.2 h
          refine ⟨⟨name, c.ty, value⟩ :: defs, ?_, by simp [h2], ?_, ?_, ?_, ?_, .cons ?_ h7⟩
          · rw [h1, List.append_assoc]; rfl
          · simp only [List.map_cons, List.cons_append]
            refine .trans ?_ hpn.symm
            simp only [List.map_cons, hc]
            exact h3.cons _
          · intro d hd
            rcases List.mem_cons.mp hd with rfl | hd
            · exact ⟨⟨c, hp.mem_iff.mpr (.head _), hc, rfl⟩, by rw [hvar]; exact .head _⟩
            · obtain ⟨⟨c', k1, k2⟩, k3⟩ := h4 d hd
              exact ⟨⟨c', hp.mem_iff.mpr (.tail _ k1), k2⟩, .tail _ k3⟩
          · intro n v hv
            rcases List.mem_cons.mp hv with he | hv
            · rw [hvar] at he
              injection he with he1 he2
              exact ⟨_, .head _, (variableOf_injective he1).symm⟩
            · obtain ⟨d, k1, k2⟩ := h5 n v hv
              exact ⟨d, .tail _ k1, k2⟩
          · intro c' hc'
            exact hp.mem_iff.mpr (.tail _ (h6 c' hc'))
          · rintro b hb ⟨n, v, w, he, rfl⟩
            rw [hvar] at he
            injection he with he1 he2
            have := variableOf_injective he1
            subst this
            obtain ⟨d, k1, k2⟩ := h5 name w hb
            obtain ⟨⟨c', k3, k4, -⟩, -⟩ := h4 d k1
            apply hn'.1
            rw [hc, ← k2, ← k4]
            exact List.mem_map_of_mem k3

theorem consume_total {cfg : List Config} {data : Text} {vars : List Var}
    (ho : Var.other ∉ vars) (hp : vars.Pairwise (fun a b => ¬ SameSetting a b))
    (hk : ∀ n v, Sets vars n v → ∃ c ∈ cfg, c.name = n) :
    ∃ r, consume cfg data vars = .ok r := by
  induction vars generalizing cfg data with
  | nil => exact ⟨_, rfl⟩
  | cons a vars ih =>
    cases a with
    | other => simp at ho
    | unicode var value =>
      simp only [consume]
      rw [List.pairwise_cons] at hp
      simp only [List.mem_cons, reduceCtorEq, false_or] at ho
      cases hs : stripPrefix varPrefix var with
      | none => exact ih ho hp.2 fun n v hv => hk n v (.tail _ hv)
      | some name =>
        have hvar : var = variableOf name := (strip_iff ..).mp hs
        obtain ⟨c0, hc0, hc1⟩ := hk name value (by rw [hvar]; exact .head _)
        cases hr : removeEntry cfg name with
        | none => exact absurd hc1 (removeEntry_none hr c0 hc0)
        | some q =>
          obtain ⟨c, rest⟩ := q
          obtain ⟨hc, hp'⟩ := removeEntry_some hr
          simp only [hr]
          refine ih ho hp.2 fun n v hv => ?_
          obtain ⟨c', k1, k2⟩ := hk n v (.tail _ hv)
          rcases List.mem_cons.mp (hp'.mem_iff.mp k1) with rfl | k1
          · refine absurd ⟨name, value, v, by rw [hvar], ?_⟩ (hp.1 _ hv)
            rw [← hc, k2]
          · exact ⟨c', k1, k2⟩

theorem consume_ne_err (cfg : List Config) (data : Text) (vars : List Var) :
    consume cfg data vars ≠ .err := by
  induction vars generalizing cfg data with
  | nil => simp [consume]
  | cons a vars ih =>
    cases a with
    | other => simp [consume]
    | unicode var value =>
      simp only [consume]
      split
      · exact ih _ _
      · split
        · simp
        · exact ih _ _

theorem outDir_iff (env : List Var) : (∃ d, outDir env = some d) ↔
    ∃ d, Var.unicode "OUT_DIR".toList d ∈ env := by
  induction env with
  | nil => simp [outDir]
  | cons a env ih =>
    cases a with
    | other => simp only [outDir, ih, List.mem_cons, reduceCtorEq, false_or]
    | unicode n v =>
      by_cases h : n = "OUT_DIR".toList
      · subst h
        rw [outDir, if_pos rfl]
        exact ⟨fun _ => ⟨v, .head _⟩, fun _ => ⟨v, rfl⟩⟩
      · rw [outDir, if_neg h, ih]
        constructor
        · rintro ⟨d, hd⟩; exact ⟨d, .tail _ hd⟩
        · rintro ⟨d, hd⟩
          rcases List.mem_cons.mp hd with he | hd
          · cases he; exact absurd rfl h
          · exact ⟨d, hd⟩

theorem configs_nodup : (configs.map Config.name).Nodup := by decide

/-! ## The theorems -/

/-- The build script succeeds exactly in these environments: every `DOT15D4_` variable names one of the
configuration constants and none is set twice, all variables are Unicode and cargo said where to write.
In all others it panics, which aborts the build. -/
theorem C53_aborts (order : List Config → List Config) (env : List Var) :
    (∃ r, main order env = .ok r) =
      ((∀ name value, Sets env name value → ∃ c ∈ configs, c.name = name) ∧
       env.Pairwise (fun a b => ¬ SameSetting a b) ∧
       Var.other ∉ env ∧ ∃ d, Var.unicode "OUT_DIR".toList d ∈ env) ∧
    main order env ≠ .err := by
  constructor
  · rw [eq_iff_iff, ← outDir_iff]
    constructor
    · rintro ⟨r, hr⟩
      simp only [main] at hr
      cases hc : consume configs preamble env with
      | err => rw [hc] at hr; cases hr
      | panic => rw [hc] at hr; cases hr
      | ok q =>
        rw [hc, bind_ok] at hr
        obtain ⟨defs, h1, h2, h3, h4, h5, h6, h7⟩ := consume_ok configs_nodup hc
        refine ⟨fun n v hv => ?_, h7, h2, ?_⟩
        · obtain ⟨d, k1, k2⟩ := h5 n v hv
          obtain ⟨⟨c, k3, k4, -⟩, -⟩ := h4 d k1
          exact ⟨c, k3, k4.trans k2⟩
        · cases ho : outDir env with
          | none => rw [ho] at hr; cases hr
          | some d => exact ⟨d, rfl⟩
    · rintro ⟨h1, h2, h3, d, h4⟩
      obtain ⟨⟨cfg, data⟩, hc⟩ := consume_total (data := preamble) h3 h2 h1
      simp only [main, hc, bind_ok, h4]
      exact ⟨_, rfl⟩
  · simp only [main]
    cases hc : consume configs preamble env with
    | err => exact absurd hc (consume_ne_err _ _ _)
    | panic => simp
    | ok q =>
      rw [bind_ok]
      cases outDir env <;> simp

/-- What a successful build script generates, whatever the order of the environment and of the hash map:
after the imports, one definition of each of the eleven constants, each with the type and, unless the
environment sets it, the default of the table. -/
theorem C53_definitions (order : List Config → List Config) (ho : ∀ l, (order l).Perm l)
    (env : List Var) (r : Output) (h : main order env = .ok r) :
    ∃ defs : List Definition, r.data = preamble ++ defs.flatMap Definition.line ∧
      (defs.map Definition.name).Perm (configs.map Config.name) ∧
      ∀ d ∈ defs, RightDefinition env d := by
  simp only [main] at h
  cases hc : consume configs preamble env with
  | err => rw [hc] at h; cases h
  | panic => rw [hc] at h; cases h
  | ok q =>
    obtain ⟨cfg, data⟩ := q
    rw [hc, bind_ok] at h
    obtain ⟨defs, h1, h2, h3, h4, h5, h6, h7⟩ := consume_ok configs_nodup hc
    cases hd : outDir env with
    | none => rw [hd] at h; cases h
    | some dir =>
      rw [hd] at h
      cases h
      refine ⟨defs ++ (order cfg).map fun c => ⟨c.name, c.ty, c.default⟩, ?_, ?_, ?_⟩
      · show data ++ _ = _
        rw [h1, List.flatMap_append, List.append_assoc, List.flatMap_map]
        rfl
      · rw [List.map_append, List.map_map]
        refine .trans (.append_left _ ?_) h3
        exact (ho cfg).map Config.name
      · intro d hd
        rcases List.mem_append.mp hd with hd | hd
        · obtain ⟨⟨c, k1, k2, k3⟩, k4⟩ := h4 d hd
          exact ⟨c, k1, k2, k3, .inl k4⟩
        · obtain ⟨c, k1, rfl⟩ := List.mem_map.mp hd
          have k1 := (ho cfg).mem_iff.mp k1
          refine ⟨c, h6 c k1, rfl, rfl, .inr ⟨fun v hv => ?_, rfl⟩⟩
          obtain ⟨d', j1, j2⟩ := h5 _ _ hv
          have hnd := (h3.nodup_iff).mpr configs_nodup
          rw [List.nodup_append] at hnd
          exact hnd.2.2 d'.name (List.mem_map_of_mem j1) c.name (List.mem_map_of_mem k1) j2

/-- The defaults of the constants (README.md:33-39 and the values the crate's own tests are compiled with,
dot15d4/src/csma/user_configurable_constants.rs:13-28, where the inter frame time has another name): name,
type, value. -/
def defaults : List (Text × Text × Text) := [
  ("MAC_MIN_BE".toList, "u16".toList, "0".toList), ("MAC_MAX_BE".toList, "u16".toList, "8".toList),
  ("MAC_MAX_CSMA_BACKOFFS".toList, "u16".toList, "16".toList),
  ("MAC_UNIT_BACKOFF_DURATION".toList, "Duration".toList,
    "Duration::from_us((UNIT_BACKOFF_PERIOD * SYMBOL_RATE_INV_US) as i64)".toList),
  ("MAC_MAX_FRAME_RETIES".toList, "u16".toList, "3".toList),
  ("CSMA_INTER_FRAME_TIME".toList, "Duration".toList, "Duration::from_us(1000)".toList),
  ("MAC_AIFS_PERIOD".toList, "Duration".toList, "Duration::from_us(1000)".toList),
  ("MAC_SIFS_PERIOD".toList, "Duration".toList, "Duration::from_us(1000)".toList),
  ("MAC_LIFS_PERIOD".toList, "Duration".toList, "Duration::from_us(10_000)".toList),
  ("MAC_PAN_ID".toList, "u16".toList, "0xffff".toList),
  ("MAC_IMPLICIT_BROADCAST".toList, "bool".toList, "false".toList)]

/-- A constant the environment does not set is defined with its documented default. -/
theorem C53_defaults (order : List Config → List Config) (ho : ∀ l, (order l).Perm l)
    (env : List Var) (r : Output) (h : main order env = .ok r) (name ty value : Text)
    (hd : (name, ty, value) ∈ defaults) (hs : ∀ v, ¬ Sets env name v) :
    Definition.line ⟨name, ty, value⟩ <:+: r.data := by
  obtain ⟨defs, h1, h2, h3⟩ := C53_definitions order ho env r h
  have key : ∀ p ∈ defaults, p.1 ∈ configs.map Config.name ∧
      ∀ c ∈ configs, c.name = p.1 → c.ty = p.2.1 ∧ c.default = p.2.2 := by decide
  obtain ⟨k1, k2⟩ := key _ hd
  obtain ⟨d, hd1, hd2⟩ := List.mem_map.mp (h2.mem_iff.mpr k1)
  obtain ⟨c, c1, c2, c3, c4⟩ := h3 d hd1
  obtain ⟨e1, e2⟩ := k2 c c1 (c2.trans hd2)
  have : d = ⟨name, ty, value⟩ := by
    rcases c4 with c4 | ⟨-, c4⟩
    · rw [hd2] at c4; exact absurd c4 (hs _)
    · cases d; simp_all
  subst this
  obtain ⟨s, t, hst⟩ := List.append_of_mem hd1
  rw [h1, hst, List.flatMap_append, List.flatMap_cons]
  exact ⟨preamble ++ s.flatMap Definition.line, t.flatMap Definition.line, by simp only [List.append_assoc]⟩

theorem stdout_eq {order : List Config → List Config} {env : List Var} {r : Output}
    (h : main order env = .ok r) : r.stdout = watchLines (order configs) := by
  simp only [main] at h
  cases hc : consume configs preamble env with
  | err => rw [hc] at h; cases h
  | panic => rw [hc] at h; cases h
  | ok q =>
    rw [hc, bind_ok] at h
    cases hd : outDir env with
    | none => rw [hd] at h; cases h
    | some dir => rw [hd] at h; cases h; rfl

/-- The line by which cargo is told to watch a variable. -/
def watchLine (name : Text) : Text :=
  "cargo:rerun-if-env-changed=".toList ++ variableOf name ++ "\n".toList

unseal variableOf varPrefix in
theorem watchLines_eq (l : List Config) : watchLines l =
    "cargo:rerun-if-changed=build.rs\n".toList ++ l.flatMap fun c => watchLine c.name := rfl

attribute [local irreducible] watchLine

/-- Cargo is told to run the script again when any of the constants is set anew. -/
theorem C53_watched (order : List Config → List Config) (ho : ∀ l, (order l).Perm l) (env : List Var)
    (r : Output) (h : main order env = .ok r) (c : Config) (hc : c ∈ configs) :
    watchLine c.name <:+: r.stdout := by
  obtain ⟨s, t, hst⟩ := List.append_of_mem ((ho configs).mem_iff.mpr hc)
  rw [stdout_eq h, watchLines_eq, hst]
  rw [List.flatMap_append, List.flatMap_cons]
  exact ⟨"cargo:rerun-if-changed=build.rs\n".toList ++ s.flatMap fun c => watchLine c.name,
    t.flatMap fun c => watchLine c.name, by simp only [List.append_assoc]⟩

/-- The variables README.md documents (README.md:33-39). -/
def documented : List Text := [
  "MAC_MIN_BE".toList, "MAC_MAX_BE".toList, "MAC_UNIT_BACKOFF_DURATION".toList,
  "MAC_MAX_FRAME_RETRIES".toList, "MAC_AIFS_PERIOD".toList, "MAC_SIFS_PERIOD".toList,
  "MAC_LIFS_PERIOD".toList]

/-- The full property: setting documented variables never aborts the build. -/
def C53_statement : Prop :=
  ∀ (order : List Config → List Config) (name value : Text), name ∈ documented →
    ∃ r, main order [.unicode "OUT_DIR".toList "/out".toList,
      .unicode (variableOf name) value] = .ok r

unseal varPrefix in
/-- It does: the documented `DOT15D4_MAC_MAX_FRAME_RETRIES` is not known to the script, which has
`MAC_MAX_FRAME_RETIES`. -/
theorem C53_documented_name_aborts (order : List Config → List Config) (value : Text) :
    main order [.unicode "OUT_DIR".toList "/out".toList,
      .unicode "DOT15D4_MAC_MAX_FRAME_RETRIES".toList value] = .panic := by
  have : consume configs preamble [.unicode "OUT_DIR".toList "/out".toList,
      .unicode "DOT15D4_MAC_MAX_FRAME_RETRIES".toList value] = .panic := rfl
  simp only [main, this, bind_panic]

theorem C53_false : ¬ C53_statement := by
  intro h
  obtain ⟨r, hr⟩ := h id "MAC_MAX_FRAME_RETRIES".toList "5".toList (by decide)
  have h2 := C53_documented_name_aborts id "5".toList
  rw [show variableOf "MAC_MAX_FRAME_RETRIES".toList =
    "DOT15D4_MAC_MAX_FRAME_RETRIES".toList by unfold variableOf; rfl, h2] at hr
  cases hr

/-- The other documented names, any number of them at once, are accepted. -/
theorem C53_documented_partial (order : List Config → List Config) (env : List Var)
    (hs : ∀ name value, Sets env name value → name ∈ documented ∧ name ≠ "MAC_MAX_FRAME_RETRIES".toList)
    (hp : env.Pairwise (fun a b => ¬ SameSetting a b)) (ho : Var.other ∉ env)
    (hd : ∃ d, Var.unicode "OUT_DIR".toList d ∈ env) : ∃ r, main order env = .ok r := by
  rw [(C53_aborts order env).1]
  refine ⟨fun n v hv => ?_, hp, ho, hd⟩
  have key : ∀ n ∈ documented, n ≠ "MAC_MAX_FRAME_RETRIES".toList → ∃ c ∈ configs, c.name = n := by
    decide
  exact key n (hs n v hv).1 (hs n v hv).2

unseal varPrefix in
/-- A build with two settings. -/
example : ∃ r, main id [.unicode "PATH".toList "/bin".toList, .unicode "DOT15D4_MAC_MAX_BE".toList "5".toList,
    .unicode "OUT_DIR".toList "/out".toList, .unicode "DOT15D4_MAC_PAN_ID".toList "0xabcd".toList] = .ok r ∧
    "pub const MAC_MAX_BE: u16 = 5;\npub const MAC_PAN_ID: u16 = 0xabcd;\npub const MAC_MIN_BE: u16 = 0;\n".toList
      <:+: r.data := by
  refine ⟨_, rfl, preamble, ((configs.drop 2).filter (fun c => c.name ≠ "MAC_PAN_ID".toList)).flatMap
    fun c => constLine c.name c.ty c.default, ?_⟩
  decide +kernel

end Dot15d4.Props
