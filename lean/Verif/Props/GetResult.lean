/- C55: getting a result of a particular Go type. -/
import Verif.Types.GetResult
import Verif.Props.Convert

namespace Verif
open Spec

theorem wellTyped_020 {r : Result} (h : WellTyped r) (hv : r.version = b!"0.2.0") : ∃ x, r = .v020 x := by
  cases r with
  | v020 x => exact ⟨x, rfl⟩
  | v040 x => simp only [WellTyped, Result.version] at h hv; rw [hv] at h; exact absurd h (by decide)
  | v100 x => simp only [WellTyped, Result.version] at h hv; rw [hv] at h; exact absurd h (by decide)

theorem wellTyped_040 {r : Result} (h : WellTyped r) (hv : r.version = b!"0.4.0") : ∃ x, r = .v040 x := by
  cases r with
  | v040 x => exact ⟨x, rfl⟩
  | v020 x => simp only [WellTyped, Result.version] at h hv; rw [hv] at h; exact absurd h (by decide)
  | v100 x => simp only [WellTyped, Result.version] at h hv; rw [hv] at h; exact absurd h (by decide)

theorem wellTyped_110 {r : Result} (h : WellTyped r) (hv : r.version = b!"1.1.0") : ∃ x, r = .v100 x := by
  cases r with
  | v100 x => exact ⟨x, rfl⟩
  | v020 x => simp only [WellTyped, Result.version] at h hv; rw [hv] at h; exact absurd h (by decide)
  | v040 x => simp only [WellTyped, Result.version] at h hv; rw [hv] at h; exact absurd h (by decide)

theorem wellTyped_ne_nil {r : Result} (h : WellTyped r) : r.version ≠ [] := by
  cases r <;> simp only [WellTyped, Result.version] at h ⊢
  · exact old_ne_nil _ h
  · exact mid_ne_nil _ h
  · exact new_ne_nil _ h

/-- C55: `types100.GetResult` and `types100.NewResultFromResult` turn every result that states a version of its type into one of the
current type that reports version 1.1.0 and is what converting to 1.1.0 gives. -/
theorem c55_get100 (r : Result) (ht : WellTyped r) (hn : NoNull r) :
    ∃ x, getResult100 r = .ok x ∧ newResultFromResult100 r = .ok x ∧ x.cniVersion = b!"1.1.0" ∧ convert r b!"1.1.0" = .ok (.v100 x) := by
  rcases c27_every_pair r ht hn (w := b!"1.1.0") (by decide) with ⟨r', h⟩ | ⟨h, -⟩
  · obtain ⟨h1, h2⟩ := c27_reports_requested h
    rw [if_neg (by decide)] at h1
    obtain ⟨x, rfl⟩ := wellTyped_110 (h2 ht) h1
    refine ⟨x, ?_, by simp only [newResultFromResult100, h], h1, h⟩
    simp only [getResult100, c27_getAsVersion, if_pos (wellTyped_ne_nil ht), h]
  · exact absurd h (by decide)

/-- C55: the same for `types040` and version 0.4.0. -/
theorem c55_get040 (r : Result) (ht : WellTyped r) (hn : NoNull r) :
    ∃ x, getResult040 r = .ok x ∧ newResultFromResult040 r = .ok x ∧ x.cniVersion = b!"0.4.0" ∧ convert r b!"0.4.0" = .ok (.v040 x) := by
  rcases c27_every_pair r ht hn (w := b!"0.4.0") (by decide) with ⟨r', h⟩ | ⟨h, -⟩
  · obtain ⟨h1, h2⟩ := c27_reports_requested h
    rw [if_neg (by decide)] at h1
    obtain ⟨x, rfl⟩ := wellTyped_040 (h2 ht) h1
    refine ⟨x, ?_, by simp only [newResultFromResult040, h], h1, h⟩
    simp only [getResult040, c27_getAsVersion, if_pos (wellTyped_ne_nil ht), h]
  · exact absurd h (by decide)

/-- C55: `types020.GetResult` gives a result of version 0.2.0, or an error if there is no address. -/
theorem c55_get020 (r : Result) (ht : WellTyped r) (hn : NoNull r) :
    (∃ x, getResult020 r = .ok x ∧ x.cniVersion = b!"0.2.0" ∧ convert r b!"0.2.0" = .ok (.v020 x)) ∨
    (¬ HasIP r ∧ ∃ e, getResult020 r = .err e) := by
  rcases c27_every_pair r ht hn (w := b!"0.2.0") (by decide) with ⟨r', h⟩ | ⟨-, h, e, he⟩
  · obtain ⟨h1, h2⟩ := c27_reports_requested h
    rw [if_neg (by decide)] at h1
    obtain ⟨x, rfl⟩ := wellTyped_020 (h2 ht) h1
    exact .inl ⟨x, by simp only [getResult020, h], h1, h⟩
  · exact .inr ⟨h, e, by simp only [getResult020, he]⟩

/-- C55: a result that states no version: `GetResult` of the newer two packages takes it to be of the newest version of its type. -/
theorem c55_unset (r : Result) (h : r.version = []) :
    getResult100 r = getResult100 (match r with
      | .v020 x => .v020 { x with cniVersion := b!"0.2.0" }
      | .v040 x => .v040 { x with cniVersion := b!"0.4.0" }
      | .v100 x => .v100 { x with cniVersion := b!"1.1.0" }) ∧
    getResult040 r = getResult040 (match r with
      | .v020 x => .v020 { x with cniVersion := b!"0.2.0" }
      | .v040 x => .v040 { x with cniVersion := b!"0.4.0" }
      | .v100 x => .v100 { x with cniVersion := b!"1.1.0" }) := by
  cases r <;> simp only [Result.version] at h <;>
    simp [getResult100, getResult040, Result.getAsVersion, h]

/-- C55, a finding: `NewResultFromResult`, and `GetResult` of the oldest package, refuse a result that states no version, whatever
its type: they do not assume a version as `GetAsVersion` does. -/
theorem c55_unset_refused (r : Result) (h : r.version = []) :
    (∃ e, getResult020 r = .err e) ∧ (∃ e, newResultFromResult040 r = .err e) ∧ ∃ e, newResultFromResult100 r = .err e := by
  have hs : r.version ∉ specVersions := by rw [h]; decide
  obtain ⟨e1, h1⟩ := c27_unknown_source r (w := b!"0.2.0") (by decide) hs (by rw [h]; decide)
  obtain ⟨e2, h2⟩ := c27_unknown_source r (w := b!"0.4.0") (by decide) hs (by rw [h]; decide)
  obtain ⟨e3, h3⟩ := c27_unknown_source r (w := b!"1.1.0") (by decide) hs (by rw [h]; decide)
  exact ⟨⟨e1, by simp only [getResult020, h1]⟩, ⟨e2, by simp only [newResultFromResult040, h2]⟩, ⟨e3, by simp only [newResultFromResult100, h3]⟩⟩

/-- C55: the registrations at package initialisation are in order: none panics, and they result in the tables `Convert` and `Create`
use. (There is nothing to quantify over: this is one run of closed code.) -/
theorem c55_registered :
    converters.foldl (fun t row => t >>= fun t => registerConverter t row) (Out.ok []) = .ok converters ∧
    [supported020, supported040, supported100].foldl (fun t row => t >>= fun t => registerCreator t row) (Out.ok []) =
      .ok [supported020, supported040, supported100] := ⟨by rfl, by rfl⟩

/-! ### registration, in general -/

theorem find_isSome_iff {α : Type} {p : α → Bool} {l : List α} : (l.find? p).isSome = true ↔ ∃ x ∈ l, p x = true := by
  rw [List.find?_isSome]

/-- C55: registering creators one after the other, whatever version lists they are for, does not panic exactly if no two of them are
for the same version; they are then found in the order of registration, so there is one creator for a version. -/
theorem c55_creators (rows t : List (List Bytes)) :
    rows.foldl (fun t row => t >>= fun t => registerCreator t row) (Out.ok []) = .ok t ↔
      t = rows ∧ rows.Pairwise fun a b => ∀ v ∈ b, v ∉ a := by
  have gen : ∀ (rows pre : List (List Bytes)), pre.Pairwise (fun a b => ∀ v ∈ b, v ∉ a) → ∀ t,
      (rows.foldl (fun t row => t >>= fun t => registerCreator t row) (Out.ok pre) = .ok t ↔
        t = pre ++ rows ∧ (pre ++ rows).Pairwise fun a b => ∀ v ∈ b, v ∉ a) := by
    intro rows
    induction rows with
    | nil => intro pre hpre t; simp [hpre, eq_comm]
    | cons row rows ih =>
      intro pre hpre t
      simp only [List.foldl_cons]
      show rows.foldl _ (registerCreator pre row) = _ ↔ _
      by_cases hc : (row.any fun v => (pre.find? fun c => decide (v ∈ c)).isSome) = true
      · rw [show registerCreator pre row = .panic from if_pos hc]
        have hpanic : ∀ rows : List (List Bytes), rows.foldl (fun t row => t >>= fun t => registerCreator t row) (Out.panic) = .panic := by
          intro rows
          induction rows with
          | nil => rfl
          | cons r rs ih => rw [List.foldl_cons]; exact ih
        rw [hpanic]
        constructor
        · intro h; cases h
        · rintro ⟨-, h⟩
          obtain ⟨v, hv, hf⟩ := List.any_eq_true.1 hc
          obtain ⟨a, ha, hva⟩ := find_isSome_iff.1 hf
          exact absurd (by simpa using hva) ((List.pairwise_append.1 h).2.2 a ha row List.mem_cons_self v hv)
      · rw [show registerCreator pre row = .ok (pre ++ [row]) from if_neg hc]
        have hrow : ∀ a ∈ pre, ∀ v ∈ row, v ∉ a := by
          intro a ha v hv hva
          exact hc (List.any_eq_true.2 ⟨v, hv, find_isSome_iff.2 ⟨a, ha, by simpa using hva⟩⟩)
        have hpre' : (pre ++ [row]).Pairwise fun a b => ∀ v ∈ b, v ∉ a :=
          List.pairwise_append.2 ⟨hpre, List.pairwise_singleton _ _, by
            intro a ha b hb
            rw [List.mem_singleton] at hb
            subst hb
            exact hrow a ha⟩
        have := ih (pre ++ [row]) hpre' t
        rwa [List.append_assoc] at this
  simpa using gen rows [] List.Pairwise.nil t

/-- C55: likewise for converters: no two may be for the same pair of versions. -/
theorem c55_converters (rows t : List (Bytes × List Bytes × Conv)) :
    rows.foldl (fun t row => t >>= fun t => registerConverter t row) (Out.ok []) = .ok t ↔
      t = rows ∧ rows.Pairwise fun a b => a.1 = b.1 → ∀ v ∈ b.2.1, v ∉ a.2.1 := by
  have gen : ∀ (rows pre : List (Bytes × List Bytes × Conv)), pre.Pairwise (fun a b => a.1 = b.1 → ∀ v ∈ b.2.1, v ∉ a.2.1) → ∀ t,
      (rows.foldl (fun t row => t >>= fun t => registerConverter t row) (Out.ok pre) = .ok t ↔
        t = pre ++ rows ∧ (pre ++ rows).Pairwise fun a b => a.1 = b.1 → ∀ v ∈ b.2.1, v ∉ a.2.1) := by
    intro rows
    induction rows with
    | nil => intro pre hpre t; simp [hpre, eq_comm]
    | cons row rows ih =>
      intro pre hpre t
      simp only [List.foldl_cons]
      show rows.foldl _ (registerConverter pre row) = _ ↔ _
      by_cases hc : (row.2.1.any fun v => (pre.find? fun c => decide (c.1 = row.1 ∧ v ∈ c.2.1)).isSome) = true
      · rw [show registerConverter pre row = .panic from if_pos hc]
        have hpanic : ∀ rows : List (Bytes × List Bytes × Conv),
            rows.foldl (fun t row => t >>= fun t => registerConverter t row) (Out.panic) = .panic := by
          intro rows
          induction rows with
          | nil => rfl
          | cons r rs ih => rw [List.foldl_cons]; exact ih
        rw [hpanic]
        constructor
        · intro h; cases h
        · rintro ⟨-, h⟩
          obtain ⟨v, hv, hf⟩ := List.any_eq_true.1 hc
          obtain ⟨a, ha, hva⟩ := find_isSome_iff.1 hf
          have hva : a.1 = row.1 ∧ v ∈ a.2.1 := by simpa using hva
          exact absurd hva.2 ((List.pairwise_append.1 h).2.2 a ha row List.mem_cons_self hva.1 v hv)
      · rw [show registerConverter pre row = .ok (pre ++ [row]) from if_neg hc]
        have hrow : ∀ a ∈ pre, a.1 = row.1 → ∀ v ∈ row.2.1, v ∉ a.2.1 := by
          intro a ha h1 v hv hva
          exact hc (List.any_eq_true.2 ⟨v, hv, find_isSome_iff.2 ⟨a, ha, by simpa using ⟨h1, hva⟩⟩⟩)
        have hpre' : (pre ++ [row]).Pairwise fun a b => a.1 = b.1 → ∀ v ∈ b.2.1, v ∉ a.2.1 :=
          List.pairwise_append.2 ⟨hpre, List.pairwise_singleton _ _, by
            intro a ha b hb
            rw [List.mem_singleton] at hb
            subst hb
            exact hrow a ha⟩
        have := ih (pre ++ [row]) hpre' t
        rwa [List.append_assoc] at this
  simpa using gen rows [] List.Pairwise.nil t

/-- C55: and so, for a pair of versions, the converter found is the only one registered for it: the order of registration does not
matter. -/
theorem c55_one_converter (rows t : List (Bytes × List Bytes × Conv))
    (h : rows.foldl (fun t row => t >>= fun t => registerConverter t row) (Out.ok []) = .ok t)
    (a b : Bytes × List Bytes × Conv) (ha : a ∈ t) (hb : b ∈ t) (v : Bytes) (hab : a.1 = b.1) (hva : v ∈ a.2.1) (hvb : v ∈ b.2.1) : a = b := by
  obtain ⟨rfl, hp⟩ := (c55_converters rows t).1 h
  clear h
  induction t with
  | nil => cases ha
  | cons x t ih =>
    rw [List.pairwise_cons] at hp
    rcases List.mem_cons.1 ha with rfl | ha'
    · rcases List.mem_cons.1 hb with rfl | hb'
      · rfl
      · exact absurd hva (hp.1 b hb' hab v hvb)
    · rcases List.mem_cons.1 hb with rfl | hb'
      · exact absurd hvb (hp.1 a ha' hab.symm v hva)
      · exact ih ha' hb' hp.2

/-- A second converter or creator for the same versions panics. -/
example : registerConverter converters (b!"0.1.0", [b!"0.2.0"], .c020From010) = .panic ∧
    registerCreator [supported020, supported040] [b!"2.0.0", b!"0.4.0"] = .panic ∧
    registerCreator [supported020, supported040] [b!"2.0.0"] = .ok [supported020, supported040, [b!"2.0.0"]] := ⟨by rfl, by rfl, by rfl⟩

/-- The samples meet the hypotheses: the values are those of the conversions. -/
example : (getResult100 (.v040 sample040)).toOption.map (·.cniVersion) = some b!"1.1.0" ∧
    (newResultFromResult040 (.v100 { cniVersion := b!"1.0.0" })).toOption.map (·.cniVersion) = some b!"0.4.0" ∧
    (getResult020 (.v040 sample040)).toOption.map (·.cniVersion) = some b!"0.2.0" ∧
    (getResult020 (.v100 { cniVersion := b!"1.0.0" })).toOption = none := by decide +kernel

example : WellTyped (.v040 sample040) ∧ NoNull (.v040 sample040) := by
  simp only [WellTyped, NoNull]
  decide

end Verif
