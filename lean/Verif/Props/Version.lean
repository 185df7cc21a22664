/-
C01: version comparison. C03: reconciliation. VERSION documents round-trip.
-/
import Verif.Base.DigitLemmas
import Verif.Version.Version
import Verif.Spec.Version

namespace Verif
open Spec
set_option linter.unusedSimpArgs false

theorem intLit_iff {s : Bytes} {n : Int} : IntLit s n ↔ ∃ ds : Bytes, ds ≠ [] ∧ (∀ c ∈ ds, isDigit c = true) ∧
    ((s = ds ∧ n = digitsVal ds) ∨ (s = 43 :: ds ∧ n = digitsVal ds) ∨ (s = 45 :: ds ∧ n = -(digitsVal ds : Int)))
    ∧ -9223372036854775808 ≤ n ∧ n ≤ 9223372036854775807 := by
  unfold IntLit
  constructor
  · rintro ⟨ds, m, h1, h2, h3⟩
    obtain ⟨h4, h5, rfl⟩ := decimal_iff.1 h1
    exact ⟨ds, h4, h5, h2, by omega, by omega⟩
  · rintro ⟨ds, h1, h2, h3, h4⟩
    exact ⟨ds, _, decimal_iff.2 ⟨h1, h2, rfl⟩, h3, by omega, by omega⟩

theorem atoi_iff (s : Bytes) (n : Int) : atoi s = some n ↔ IntLit s n := by
  have key : ∀ (neg : Bool) (ds : Bytes),
      (if ds = [] ∨ ds.any (fun c => !isDigit c) then none
        else if -9223372036854775808 ≤ (if neg then -(digitsVal ds : Int) else digitsVal ds)
          ∧ (if neg then -(digitsVal ds : Int) else digitsVal ds) ≤ 9223372036854775807
        then some (if neg then -(digitsVal ds : Int) else (digitsVal ds : Int)) else none) = some n ↔
      (ds ≠ [] ∧ (∀ c ∈ ds, isDigit c = true) ∧ n = (if neg then -(digitsVal ds : Int) else digitsVal ds)
        ∧ -9223372036854775808 ≤ n ∧ n ≤ 9223372036854775807) := by
    intro neg ds
    generalize (if neg then -(digitsVal ds : Int) else (digitsVal ds : Int)) = v
    by_cases h1 : ds = []
    · simp [h1]
    · by_cases h2 : ∀ c ∈ ds, isDigit c = true
      · have h3 : ds.any (fun c => !isDigit c) = false := by
          rw [List.any_eq_false]; intro c hc; simp [h2 c hc]
        simp only [h1, h3, Bool.false_eq_true, or_self, if_false, ne_eq, not_false_eq_true, true_and]
        constructor
        · intro h
          split at h
          · rename_i hr
            simp at h; subst h
            exact ⟨h2, rfl, hr⟩
          · cases h
        · rintro ⟨_, rfl, hr⟩
          rw [if_pos hr]
      · have h3 : ds.any (fun c => !isDigit c) = true := by
          rw [List.any_eq_true]
          simp only [Classical.not_forall] at h2
          obtain ⟨c, hc, hd⟩ := h2
          exact ⟨c, hc, by simp [hd]⟩
        simp [h3, h2]
  rw [intLit_iff]
  unfold atoi
  split
  rename_i neg ds heq
  refine (key neg ds).trans ?_
  split at heq
  · -- '-'
    simp only [Prod.mk.injEq] at heq
    obtain ⟨rfl, rfl⟩ := heq
    rename_i r
    constructor
    · rintro ⟨h1, h2, h3, h4⟩
      exact ⟨r, h1, h2, Or.inr (Or.inr ⟨rfl, h3⟩), h4⟩
    · rintro ⟨ds, h1, h2, h3, h4⟩
      rcases h3 with ⟨h3, h5⟩ | ⟨h3, h5⟩ | ⟨h3, h5⟩
      · subst h3; have := h2 45 (by simp); simp [isDigit] at this
      · simp at h3
      · simp at h3; subst h3; exact ⟨h1, h2, h5, h4⟩
  · simp only [Prod.mk.injEq] at heq
    obtain ⟨rfl, rfl⟩ := heq
    rename_i r
    constructor
    · rintro ⟨h1, h2, h3, h4⟩
      exact ⟨r, h1, h2, Or.inr (Or.inl ⟨rfl, h3⟩), h4⟩
    · rintro ⟨ds, h1, h2, h3, h4⟩
      rcases h3 with ⟨h3, h5⟩ | ⟨h3, h5⟩ | ⟨h3, h5⟩
      · subst h3; have := h2 43 (by simp); simp [isDigit] at this
      · simp at h3; subst h3; exact ⟨h1, h2, h5, h4⟩
      · simp at h3
  · rename_i hn1 hn2
    simp only [Prod.mk.injEq] at heq
    obtain ⟨rfl, rfl⟩ := heq
    constructor
    · rintro ⟨h1, h2, h3, h4⟩
      exact ⟨s, h1, h2, Or.inl ⟨rfl, h3⟩, h4⟩
    · rintro ⟨ds, h1, h2, h3, h4⟩
      rcases h3 with ⟨h3, h5⟩ | ⟨h3, h5⟩ | ⟨h3, h5⟩
      · subst h3; exact ⟨h1, h2, h5, h4⟩
      · exact absurd h3 (hn2 ds)
      · exact absurd h3 (hn1 ds)

theorem Spec.IntLit.no_dot {s : Bytes} {n : Int} (h : IntLit s n) : (46 : UInt8) ∉ s := by
  obtain ⟨ds, _, hd, h, _⟩ := intLit_iff.1 h
  have hds : (46 : UInt8) ∉ ds := fun hm => by have := hd 46 hm; simp [isDigit] at this
  rcases h with ⟨rfl, _⟩ | ⟨rfl, _⟩ | ⟨rfl, _⟩ <;> simp [hds]

theorem Spec.IntLit.ne_nil {s : Bytes} {n : Int} (h : IntLit s n) : s ≠ [] := by
  obtain ⟨ds, h0, hd, h, _⟩ := intLit_iff.1 h
  rcases h with ⟨rfl, _⟩ | ⟨rfl, _⟩ | ⟨rfl, _⟩ <;> simp [h0]

/-- The parser decides exactly the specified reading. -/
theorem parseVersion_iff (v : Bytes) (t : Int × Int × Int) : parseVersion v = some t ↔ Reads v t := by
  constructor
  · intro h
    unfold parseVersion at h
    split at h
    · rename_i hv; subst hv; simp at h; subst h; exact .empty
    · have hj := joinWith_splitOn 46 v
      split at h
      · rename_i a he
        rw [he] at hj
        simp only [Option.map_eq_some_iff] at h
        obtain ⟨x, hx, rfl⟩ := h
        simp only [joinWith] at hj
        rw [← hj]
        exact .one ((atoi_iff _ _).mp hx)
      · rename_i a b he
        rw [he] at hj
        simp only [Option.bind_eq_some_iff, Option.map_eq_some_iff] at h
        obtain ⟨x, hx, y, hy, rfl⟩ := h
        simp only [joinWith, List.append_assoc, List.singleton_append] at hj
        rw [← hj]
        exact .two ((atoi_iff _ _).mp hx) ((atoi_iff _ _).mp hy)
      · rename_i a b c he
        rw [he] at hj
        simp only [Option.bind_eq_some_iff, Option.map_eq_some_iff] at h
        obtain ⟨x, hx, y, hy, z, hz, rfl⟩ := h
        simp only [joinWith, List.append_assoc, List.singleton_append] at hj
        rw [← hj]
        exact .three ((atoi_iff _ _).mp hx) ((atoi_iff _ _).mp hy) ((atoi_iff _ _).mp hz)
      · cases h
  · intro h
    cases h with
    | empty => rfl
    | one ha =>
      simp only [parseVersion, ha.ne_nil, if_false, splitOn_of_not_mem _ _ ha.no_dot, (atoi_iff _ _).mpr ha,
        Option.map_some]
    | two ha hb =>
      rename_i a b x y
      have : a ++ 46 :: b ≠ [] := by simp
      simp only [parseVersion, this, if_false, splitOn_append_sep _ _ _ ha.no_dot,
        splitOn_of_not_mem _ _ hb.no_dot, (atoi_iff _ _).mpr ha, (atoi_iff _ _).mpr hb, Option.map_some,
        Option.bind_some]
    | three ha hb hc =>
      rename_i a b c x y z
      have : a ++ 46 :: (b ++ 46 :: c) ≠ [] := by simp
      simp only [parseVersion, this, if_false, splitOn_append_sep _ _ _ ha.no_dot, splitOn_append_sep _ _ _ hb.no_dot,
        splitOn_of_not_mem _ _ hc.no_dot, (atoi_iff _ _).mpr ha, (atoi_iff _ _).mpr hb, (atoi_iff _ _).mpr hc,
        Option.map_some, Option.bind_some]

/-- A version string reads as at most one triple. -/
theorem c01_reads_unique {v : Bytes} {t u : Int × Int × Int} (h : Reads v t) (h' : Reads v u) : t = u := by
  have := (parseVersion_iff v t).mpr h
  rw [(parseVersion_iff v u).mpr h'] at this
  simpa using this.symm

theorem gte_of {a b : Bytes} {p q : Int × Int × Int} (ha : parseVersion a = some p) (hb : parseVersion b = some q) :
    (LexLe q p → gte a b = .ok true) ∧ (¬ LexLe q p → gte a b = .ok false) := by
  obtain ⟨a1, a2, a3⟩ := p
  obtain ⟨b1, b2, b3⟩ := q
  unfold gte LexLe LexLt
  simp only [ha, hb, Prod.mk.injEq]
  constructor
  · intro h
    split
    · rfl
    · split
      · split
        · rfl
        · split
          · rfl
          · omega
      · omega
  · intro h
    split
    · omega
    · split
      · split
        · omega
        · split
          · omega
          · rfl
      · rfl

theorem gt_of {a b : Bytes} {p q : Int × Int × Int} (ha : parseVersion a = some p) (hb : parseVersion b = some q) :
    (LexLt q p → gt a b = .ok true) ∧ (¬ LexLt q p → gt a b = .ok false) := by
  obtain ⟨a1, a2, a3⟩ := p
  obtain ⟨b1, b2, b3⟩ := q
  unfold gt LexLt
  simp only [ha, hb]
  constructor
  · intro h
    split
    · rfl
    · split
      · split
        · rfl
        · split
          · rfl
          · omega
      · omega
  · intro h
    split
    · omega
    · split
      · split
        · omega
        · split
          · omega
          · rfl
      · rfl

/-- C01: on well-formed versions `GreaterThanOrEqualTo` is the lexicographic order. -/
theorem c01_gte {a b : Bytes} {p q : Int × Int × Int} (ha : Reads a p) (hb : Reads b q) :
    ∃ r, gte a b = .ok r ∧ (r = true ↔ LexLe q p) := by
  have := gte_of ((parseVersion_iff a p).mpr ha) ((parseVersion_iff b q).mpr hb)
  by_cases h : LexLe q p
  · exact ⟨true, this.1 h, by simp [h]⟩
  · exact ⟨false, this.2 h, by simp [h]⟩

/-- C01: `GreaterThan` is the strict order. -/
theorem c01_gt {a b : Bytes} {p q : Int × Int × Int} (ha : Reads a p) (hb : Reads b q) :
    ∃ r, gt a b = .ok r ∧ (r = true ↔ LexLt q p) := by
  have := gt_of ((parseVersion_iff a p).mpr ha) ((parseVersion_iff b q).mpr hb)
  by_cases h : LexLt q p
  · exact ⟨true, this.1 h, by simp [h]⟩
  · exact ⟨false, this.2 h, by simp [h]⟩

/-- C01: comparison fails exactly when one of the strings is not a version. -/
theorem c01_error_iff (a b : Bytes) :
    ((∃ e, gte a b = .err e) ↔ ¬ (∃ p, Reads a p) ∨ ¬ (∃ q, Reads b q)) ∧
    ((∃ e, gt a b = .err e) ↔ ¬ (∃ p, Reads a p) ∨ ¬ (∃ q, Reads b q)) := by
  cases ha : parseVersion a with
  | none =>
    have hn : ¬ ∃ p, Reads a p := by
      rintro ⟨p, hp⟩; rw [(parseVersion_iff a p).mpr hp] at ha; cases ha
    simp only [gte, gt, ha, hn, not_false_eq_true, true_or, iff_true]
    exact ⟨⟨_, rfl⟩, ⟨_, rfl⟩⟩
  | some p =>
    have hp : Reads a p := (parseVersion_iff a p).mp ha
    cases hb : parseVersion b with
    | none =>
      have hn : ¬ ∃ p, Reads b p := by
        rintro ⟨p, hp⟩; rw [(parseVersion_iff b p).mpr hp] at hb; cases hb
      simp only [gte, gt, ha, hb, hn, not_false_eq_true, or_true, iff_true]
      exact ⟨⟨_, rfl⟩, ⟨_, rfl⟩⟩
    | some q =>
      have hq : Reads b q := (parseVersion_iff b q).mp hb
      obtain ⟨r, h1, _⟩ := c01_gte hp hq
      obtain ⟨r', h2, _⟩ := c01_gt hp hq
      rw [h1, h2]
      have e1 : (∃ p, Reads a p) := ⟨p, hp⟩
      have e2 : (∃ p, Reads b p) := ⟨q, hq⟩
      simp [e1, e2]

/-- C01: order laws. -/
theorem c01_refl {a : Bytes} {p : Int × Int × Int} (ha : Reads a p) : gte a a = .ok true :=
  (gte_of ((parseVersion_iff a p).mpr ha) ((parseVersion_iff a p).mpr ha)).1 (Or.inl rfl)

theorem c01_trans {a b c : Bytes} (h1 : gte a b = .ok true) (h2 : gte b c = .ok true) : gte a c = .ok true := by
  cases ha : parseVersion a with
  | none => simp [gte, ha] at h1
  | some p =>
    cases hb : parseVersion b with
    | none => simp [gte, ha, hb] at h1
    | some q =>
      cases hc : parseVersion c with
      | none => simp [gte, hb, hc] at h2
      | some r =>
        have e1 : LexLe q p := by
          apply Classical.byContradiction; intro hn
          rw [(gte_of ha hb).2 hn] at h1; cases h1
        have e2 : LexLe r q := by
          apply Classical.byContradiction; intro hn
          rw [(gte_of hb hc).2 hn] at h2; cases h2
        refine (gte_of ha hc).1 ?_
        obtain ⟨a1, a2, a3⟩ := p
        obtain ⟨b1, b2, b3⟩ := q
        obtain ⟨c1, c2, c3⟩ := r
        simp only [LexLe, LexLt, Prod.mk.injEq] at *
        omega

theorem c01_total {a b : Bytes} {p q : Int × Int × Int} (ha : Reads a p) (hb : Reads b q) :
    gte a b = .ok true ∨ gte b a = .ok true := by
  have h1 := (gte_of ((parseVersion_iff a p).mpr ha) ((parseVersion_iff b q).mpr hb)).1
  have h2 := (gte_of ((parseVersion_iff b q).mpr hb) ((parseVersion_iff a p).mpr ha)).1
  have : LexLe q p ∨ LexLe p q := by
    obtain ⟨a1, a2, a3⟩ := p
    obtain ⟨b1, b2, b3⟩ := q
    simp only [LexLe, LexLt, Prod.mk.injEq]
    omega
  rcases this with h | h
  · exact Or.inl (h1 h)
  · exact Or.inr (h2 h)

/-- `GreaterThan(a, b)` is `GreaterThanOrEqualTo(a, b)` and not `GreaterThanOrEqualTo(b, a)`. -/
theorem c01_strict (a b : Bytes) : gt a b = .ok true ↔ gte a b = .ok true ∧ gte b a = .ok false := by
  cases ha : parseVersion a with
  | none => simp [gt, gte, ha]
  | some p =>
    cases hb : parseVersion b with
    | none => simp [gt, gte, ha, hb]
    | some q =>
      have g1 := gt_of ha hb
      have g2 := gte_of ha hb
      have g3 := gte_of hb ha
      have : LexLt q p ↔ LexLe q p ∧ ¬ LexLe p q := by
        obtain ⟨a1, a2, a3⟩ := p
        obtain ⟨b1, b2, b3⟩ := q
        simp only [LexLe, LexLt, Prod.mk.injEq]
        omega
      by_cases h : LexLt q p
      · rw [g1.1 h, g2.1 (this.mp h).1, g3.2 (this.mp h).2]; simp
      · rw [g1.2 h]
        simp only [Out.ok.injEq, Bool.false_eq_true, false_iff]
        rintro ⟨h1, h2⟩
        apply h
        rw [this]
        constructor
        · apply Classical.byContradiction; intro hn; rw [g2.2 hn] at h1; cases h1
        · intro hn; rw [g3.1 hn] at h2; cases h2

example : Reads b!"1.10" (1, 10, 0) ∧ Reads b!"+1.9.7" (1, 9, 7) :=
  ⟨(parseVersion_iff _ _).mp rfl, (parseVersion_iff _ _).mp rfl⟩
example : gte b!"1.10" b!"1.9.7" = .ok true ∧ gt b!"" b!"0.1.0" = .ok false := ⟨rfl, rfl⟩
example : (∃ e, gte b!"1.0.0.0" b!"1" = .err e) ∧ (∃ e, gt b!"1" b!"v1" = .err e) := ⟨⟨_, rfl⟩, ⟨_, rfl⟩⟩

/-! ### C03 -/

theorem checkRaw_loop (cfg : Bytes) (s l : List Bytes) :
    checkRaw.loop cfg s l = if cfg ∈ l then none else some { config := cfg, supported := s } := by
  induction l with
  | nil => simp [checkRaw.loop]
  | cons a l ih =>
    simp only [checkRaw.loop, ih, List.mem_cons]
    by_cases h : cfg = a <;> simp [h]

/-- C03: a plugin accepts exactly the versions in its list; otherwise the report names the config
version and the whole list. -/
theorem c03_accepts_iff (cfg : Bytes) (supported : List Bytes) :
    (checkRaw cfg supported = none ↔ cfg ∈ supported) ∧
    (cfg ∉ supported → checkRaw cfg supported = some { config := cfg, supported := supported }) := by
  unfold checkRaw
  rw [checkRaw_loop]
  by_cases h : cfg ∈ supported <;> simp [h]

example : checkRaw b!"1.0" [b!"1.0.0", b!"1.1.0"] = some ⟨b!"1.0", [b!"1.0.0", b!"1.1.0"]⟩ := by decide
example : checkRaw b!"1.1.0" [b!"1.0.0", b!"1.1.0"] = none := by decide

/-! ### VERSION documents (used by C26 and C37) -/

theorem PluginInfo.json_WF (p : PluginInfo) (hv : isUtf8 p.cniVersion = true) (hs : ∀ v ∈ p.supported, isUtf8 v = true) :
    p.json.WF := by
  have h1 : isUtf8 b!"cniVersion" = true := by decide
  have h2 : isUtf8 b!"supportedVersions" = true := by decide
  have h3 : (jStrList p.supported).WF := by
    simp only [jStrList, Json.WF, WFList_iff]
    intro j hj
    simp only [List.mem_map] at hj
    obtain ⟨v, hv, rfl⟩ := hj
    exact hs v hv
  simp only [PluginInfo.json, Json.WF, WFMembers_iff]
  intro m hm
  simp only [List.mem_append, List.mem_singleton, jopt] at hm
  rcases hm with rfl | hm
  · exact ⟨h1, hv⟩
  · split at hm
    · simp only [List.mem_singleton] at hm; subst hm; exact ⟨h2, h3⟩
    · simp at hm

theorem parse_print_nl (j : Json) (h : j.WF) : Json.parse (j.print ++ [10]) = some j := by
  have := parseVal_print j h ((j.print ++ [10]).length + 1) [10] (by simp; omega) (by intro c hc; simp at hc; subst hc; decide)
  simp only [Json.parse, this]
  simp [skipWs, isWs]

/-- A VERSION document printed by a plugin decodes to the same versions. -/
theorem decode_encode_info (p : PluginInfo) (hv : isUtf8 p.cniVersion = true) (hs : ∀ v ∈ p.supported, isUtf8 v = true)
    (hne : p.cniVersion ≠ []) (hs0 : p.supported ≠ []) : decodePluginInfo p.encode = .ok p := by
  have e1 : getField infoFields b!"cniVersion" ([(b!"cniVersion", Json.str p.cniVersion)] ++
      jopt (p.supported ≠ []) b!"supportedVersions" (jStrList p.supported)) = [.str p.cniVersion] := by
    rw [getField_append, getField_cons, getField_jopt]
    simp [show fieldMatch infoFields b!"cniVersion" = some b!"cniVersion" by decide,
      show ¬ fieldMatch infoFields b!"supportedVersions" = some b!"cniVersion" by decide, getField_nil]
  have e2 : getField infoFields b!"supportedVersions" ([(b!"cniVersion", Json.str p.cniVersion)] ++
      jopt (p.supported ≠ []) b!"supportedVersions" (jStrList p.supported)) = [jStrList p.supported] := by
    rw [getField_append, getField_cons, getField_jopt]
    simp [show fieldMatch infoFields b!"supportedVersions" = some b!"supportedVersions" by decide,
      show ¬ fieldMatch infoFields b!"cniVersion" = some b!"supportedVersions" by decide, getField_nil, hs0]
  simp only [decodePluginInfo, PluginInfo.encode, parse_print_nl _ (p.json_WF hv hs), Out.ofOption_some, Out.bind_ok]
  simp only [PluginInfo.json, structMembers, Out.ofOption_some, Out.bind_ok, e1, e2, decAll_one, decStr,
    decStrList_jStrList, hne, hs0, if_false]

theorem dropWhile_nil {α : Type} (q : α → Bool) (l : List α) : l.dropWhile q = [] ↔ ∀ x ∈ l, q x = true := by
  induction l with
  | nil => simp
  | cons a l ih =>
    rw [List.dropWhile_cons]
    cases h : q a <;> simp [h, ih]

/-- `VersionsStartingFrom(min)` is the part of the full version list from `min` on; an unknown `min`
panics. -/
theorem versionsStartingFrom_eq (min : Bytes) :
    versionsStartingFrom min = if min ∈ allVersions then
      .ok { cniVersion := b!"1.1.0", supported := allVersions.dropWhile (fun v => v ≠ min) } else .panic := by
  have key : ∀ (l acc : List Bytes) (b : Bool),
      (l.foldl (fun (st : Bool × List Bytes) v => (st.1 || v == min, if (st.1 || v == min) then st.2 ++ [v] else st.2)) (b, acc)).2
        = acc ++ if b then l else l.dropWhile (fun v => v ≠ min) := by
    intro l
    induction l with
    | nil => intro acc b; cases b <;> simp
    | cons a l ih =>
      intro acc b
      simp only [List.foldl_cons, ih]
      cases b with
      | true => simp
      | false =>
        by_cases h : a = min
        · simp [h]
        · simp [h, List.dropWhile_cons]
  have := key allVersions [] false
  simp only [List.nil_append, Bool.false_eq_true, if_false] at this
  simp only [versionsStartingFrom, this, pluginSupports, currentVersion]
  by_cases h : min ∈ allVersions
  · have hne : allVersions.dropWhile (fun v => v ≠ min) ≠ [] := by
      intro he
      rw [dropWhile_nil] at he
      simpa using he min h
    rw [if_neg hne, if_pos h]
  · have hne : allVersions.dropWhile (fun v => v ≠ min) = [] := by
      rw [dropWhile_nil]
      intro x hx
      simp only [decide_eq_true_eq]
      rintro rfl; exact h hx
    rw [if_pos hne, if_neg h]

end Verif
