/- C02, C09, C10, C11: loading network configurations. -/
import Verif.Base.CaseLemmas
import Verif.Props.Stdin
import Verif.Props.Version
import Verif.Spec.Conf

namespace Verif
open Spec
set_option linter.unusedSimpArgs false

/-! ### reading members of the decoded map -/

section
variable {ms m : List (Bytes × Json)} (hm : Json.toAnyMembers ms = some m)
include hm

theorem lastMember_toAny {k : Bytes} {v : Json} (h : LastMember ms k v) : ∃ w, v.toAny = some w ∧ GoMap.get? (GoMap.ofList m) k = some w := by
  have := (injected_insertAll (kvs := []) hm (by simp)).others k (by simp)
  obtain ⟨w, hw, hmem⟩ := this.1 v h
  exact ⟨w, hw, GoMap.mem_get? (GoMap.sorted_ofList _) hmem⟩

theorem get?_ofList_none {k : Bytes} : GoMap.get? (GoMap.ofList m) k = none ↔ NoMember ms k := by
  constructor
  · intro h
    cases hl : GoMap.get? ms.reverse k with
    | none => exact noMember_iff.2 hl
    | some v =>
      obtain ⟨w, _, hw⟩ := lastMember_toAny hm (lastMember_iff.2 hl)
      rw [hw] at h; cases h
  · intro h
    rw [toAnyMembers_get? hm, noMember_iff.1 h]; rfl

theorem get?_ofList_some {k : Bytes} {w : Json} (h : GoMap.get? (GoMap.ofList m) k = some w) :
    ∃ v, LastMember ms k v ∧ v.toAny = some w := by
  rw [toAnyMembers_get? hm, Option.bind_eq_some_iff] at h
  obtain ⟨v, hv, hw⟩ := h
  exact ⟨v, lastMember_iff.2 hv, hw⟩

theorem get?_str {k s : Bytes} : GoMap.get? (GoMap.ofList m) k = some (.str s) ↔ LastMember ms k (.str s) := by
  constructor
  · intro h
    obtain ⟨v, hv, hw⟩ := get?_ofList_some hm h
    cases v <;> simp [Json.toAny] at hw
    subst hw; exact hv
  · intro h
    obtain ⟨w, hw, hg⟩ := lastMember_toAny hm h
    simp [Json.toAny] at hw; subst hw; exact hg

theorem get?_bool {k : Bytes} {b : Bool} : GoMap.get? (GoMap.ofList m) k = some (.bool b) ↔ LastMember ms k (.bool b) := by
  constructor
  · intro h
    obtain ⟨v, hv, hw⟩ := get?_ofList_some hm h
    cases v <;> simp [Json.toAny] at hw
    subst hw; exact hv
  · intro h
    obtain ⟨w, hw, hg⟩ := lastMember_toAny hm h
    simp [Json.toAny] at hw; subst hw; exact hg

theorem get?_arr {k : Bytes} {l' : List Json} :
    GoMap.get? (GoMap.ofList m) k = some (.arr l') ↔ ∃ l, LastMember ms k (.arr l) ∧ Json.toAnyList l = some l' := by
  constructor
  · intro h
    obtain ⟨v, hv, hw⟩ := get?_ofList_some hm h
    cases v <;> simp [Json.toAny] at hw
    exact ⟨_, hv, hw⟩
  · rintro ⟨l, h, hl⟩
    obtain ⟨w, hw, hg⟩ := lastMember_toAny hm h
    simp [Json.toAny, hl] at hw; subst hw; exact hg
end

theorem lastMember_unique {α : Type} {ms : List (Bytes × α)} {k : Bytes} {v w : α} (h : LastMember ms k v) (h' : LastMember ms k w) :
    v = w := by
  rw [lastMember_iff] at h h'
  rw [h] at h'; exact Option.some.inj h'

theorem lastMember_not_noMember {α : Type} {ms : List (Bytes × α)} {k : Bytes} {v : α} (h : LastMember ms k v) : ¬ NoMember ms k := by
  rw [lastMember_iff] at h; rw [noMember_iff, h]; simp

/-! ### flags -/

theorem readBool_iff {ms m : List (Bytes × Json)} (hm : Json.toAnyMembers ms = some m) (key : Bytes) (f : Bool) :
    readBool (GoMap.ofList m) key = .ok f ↔ FlagIs ms key f := by
  unfold readBool
  cases hg : GoMap.get? (GoMap.ofList m) key with
  | none =>
    have hn := (get?_ofList_none hm).1 hg
    simp only [Out.ok.injEq]
    constructor
    · intro h; exact Or.inl ⟨hn, h.symm⟩
    · rintro (⟨_, h⟩ | h | ⟨s, h, _⟩)
      · exact h.symm
      · exact absurd hn (lastMember_not_noMember h)
      · exact absurd hn (lastMember_not_noMember h)
  | some w =>
    have hn : ¬ NoMember ms key := by
      intro h; rw [(get?_ofList_none hm).2 h] at hg; cases hg
    have hs : ∀ s, LastMember ms key (.str s) ↔ w = .str s := by
      intro s; rw [← get?_str hm, hg, Option.some.injEq]
    have hb : ∀ b, LastMember ms key (.bool b) ↔ w = .bool b := by
      intro b; rw [← get?_bool hm, hg, Option.some.injEq]
    unfold FlagIs
    simp only [hn, false_and, false_or, hs, hb]
    cases w with
    | bool b => simp
    | str s =>
      have hl : ∀ f : Bool, AnyCase (if f then b!"true" else b!"false") s ↔ toLower s = if f then b!"true" else b!"false" :=
        fun f => (toLower_iff (by cases f <;> decide) s).symm
      simp only [reduceCtorEq, false_or, Json.str.injEq, exists_eq_left', hl]
      by_cases h1 : toLower s = b!"false"
      · cases f <;> simp [h1]
      · by_cases h2 : toLower s = b!"true"
        · cases f <;> simp [h2]
        · cases f <;> simp [h1, h2]
    | _ => simp

/-! ### versions -/

theorem lexLe_total (p q : Int × Int × Int) : LexLe p q ∨ LexLe q p := by
  obtain ⟨a, b, c⟩ := p
  obtain ⟨x, y, z⟩ := q
  simp only [LexLe, LexLt, Prod.mk.injEq]
  omega

theorem lexLe_iff_not_lt (p q : Int × Int × Int) : LexLe p q ↔ ¬ LexLt q p := by
  obtain ⟨a, b, c⟩ := p
  obtain ⟨x, y, z⟩ := q
  simp only [LexLe, LexLt, Prod.mk.injEq]
  omega

theorem lexLe_trans {p q r : Int × Int × Int} (h : LexLe p q) (h' : LexLe q r) : LexLe p r := by
  obtain ⟨a, b, c⟩ := p
  obtain ⟨x, y, z⟩ := q
  obtain ⟨u, v, w⟩ := r
  simp only [LexLe, LexLt, Prod.mk.injEq] at *
  omega

theorem reads_current : Reads currentVersion (1, 1, 0) := (parseVersion_iff _ _).1 (by decide)

theorem gt_current {v : Bytes} {g : Bool} (h : gt v currentVersion = .ok g) :
    ∃ p, Reads v p ∧ (g = false ↔ LexLe p (1, 1, 0)) := by
  by_cases hr : ∃ p, Reads v p
  · obtain ⟨p, hp⟩ := hr
    obtain ⟨r, hr, hlt⟩ := c01_gt hp reads_current
    rw [h] at hr; cases hr
    refine ⟨p, hp, ?_⟩
    rw [lexLe_iff_not_lt, ← hlt]
    cases g <;> simp
  · obtain ⟨e, he⟩ := (c01_error_iff v currentVersion).2.2 (Or.inl hr)
    rw [h] at he; cases he

theorem readVersions_ok {l : List Json} {vs : List Bytes} (h : readVersions l = .ok vs) :
    (∀ j ∈ l, ∃ s p, j = .str s ∧ Reads s p) ∧
      ∀ s, s ∈ vs ↔ .str s ∈ l ∧ ∃ p, Reads s p ∧ LexLe p (1, 1, 0) := by
  induction l generalizing vs with
  | nil => simp [readVersions] at h; subst h; simp
  | cons j l ih =>
    cases j with
    | str v =>
      simp only [readVersions] at h
      cases hg : gt v currentVersion with
      | err e => rw [hg] at h; simp at h
      | panic => rw [hg] at h; simp at h
      | ok g =>
        rw [hg] at h
        simp only at h
        cases hr : readVersions l with
        | err e => rw [hr] at h; simp at h
        | panic => rw [hr] at h; simp at h
        | ok vs' =>
          rw [hr] at h
          simp only [Out.bind_ok, Out.ok.injEq] at h
          obtain ⟨i1, i2⟩ := ih hr
          obtain ⟨p, hp, hgp⟩ := gt_current hg
          constructor
          · intro j hj
            rcases List.mem_cons.1 hj with rfl | hj
            · exact ⟨v, p, rfl, hp⟩
            · exact i1 j hj
          · intro s
            subst h
            cases g with
            | true =>
              simp only [if_true, i2, List.mem_cons, Json.str.injEq]
              constructor
              · rintro ⟨a, b⟩; exact ⟨Or.inr a, b⟩
              · rintro ⟨rfl | a, b⟩
                · obtain ⟨q, hq, hle⟩ := b
                  rw [c01_reads_unique hq hp] at hle
                  exact absurd (hgp.2 hle) (by simp)
                · exact ⟨a, b⟩
            | false =>
              simp only [Bool.false_eq_true, if_false, List.mem_cons, i2, Json.str.injEq]
              constructor
              · rintro (rfl | ⟨a, b⟩)
                · exact ⟨Or.inl rfl, p, hp, hgp.1 rfl⟩
                · exact ⟨Or.inr a, b⟩
              · rintro ⟨rfl | a, b⟩
                · exact Or.inl rfl
                · exact Or.inr ⟨a, b⟩
    | _ => simp [readVersions] at h

theorem readVersions_total {l : List Json} (h : ∀ j ∈ l, ∃ s p, j = .str s ∧ Reads s p) : ∃ vs, readVersions l = .ok vs := by
  induction l with
  | nil => exact ⟨_, rfl⟩
  | cons j l ih =>
    obtain ⟨s, p, rfl, hp⟩ := h j (by simp)
    obtain ⟨vs, hvs⟩ := ih (fun j hj => h j (by simp [hj]))
    obtain ⟨g, hg, _⟩ := c01_gt hp reads_current
    exact ⟨if g then vs else s :: vs, by simp only [readVersions, hg, hvs, Out.bind_ok]⟩

theorem gt_no_panic (a b : Bytes) : gt a b ≠ .panic := by
  unfold gt
  repeat' split
  all_goals simp

theorem readVersions_no_panic (l : List Json) : readVersions l ≠ .panic := by
  induction l with
  | nil => simp [readVersions]
  | cons j l ih =>
    cases j with
    | str v =>
      simp only [readVersions]
      cases hg : gt v currentVersion with
      | err e => simp
      | panic => exact absurd hg (gt_no_panic _ _)
      | ok g =>
        cases hr : readVersions l with
        | panic => exact absurd hr ih
        | err e => simp
        | ok vs => simp
    | _ => simp [readVersions]


theorem toAnyList_str {l l' : List Json} (h : Json.toAnyList l = some l') (s : Bytes) : .str s ∈ l' ↔ .str s ∈ l := by
  induction l generalizing l' with
  | nil => simp [Json.toAnyList] at h; subst h; simp
  | cons j l ih =>
    simp only [Json.toAnyList] at h
    split at h
    · rename_i j' l'' hj hl
      simp only [Option.some.injEq] at h; subst h
      simp only [List.mem_cons, ih hl]
      have : (.str s = j') ↔ (.str s = j) := by
        cases j <;> simp [Json.toAny] at hj
        all_goals first
          | (subst hj; simp)
          | (obtain ⟨_, _, rfl⟩ := hj; simp)
      rw [this]
    · cases h

theorem toAnyList_all_str {l l' : List Json} (h : Json.toAnyList l = some l') {P : Bytes → Prop} :
    (∀ j ∈ l', ∃ s, j = .str s ∧ P s) ↔ (∀ j ∈ l, ∃ s, j = .str s ∧ P s) := by
  induction l generalizing l' with
  | nil => simp [Json.toAnyList] at h; subst h; simp
  | cons j l ih =>
    simp only [Json.toAnyList] at h
    split at h
    · rename_i j' l'' hj hl
      simp only [Option.some.injEq] at h; subst h
      simp only [List.mem_cons, forall_eq_or_imp, ih hl]
      have : (∃ s, j' = .str s ∧ P s) ↔ (∃ s, j = .str s ∧ P s) := by
        cases j <;> simp [Json.toAny] at hj
        all_goals first
          | (subst hj; simp)
          | (obtain ⟨_, _, rfl⟩ := hj; simp)
      rw [this]
    · cases h

theorem strOrEmpty_iff {ms m : List (Bytes × Json)} (hm : Json.toAnyMembers ms = some m) (cv : Bytes) :
    DeclaredVersion ms cv ↔ (GoMap.get? (GoMap.ofList m) b!"cniVersion" = some (.str cv) ∨
      (GoMap.get? (GoMap.ofList m) b!"cniVersion" = none ∧ cv = [])) := by
  unfold DeclaredVersion
  rw [get?_str hm, get?_ofList_none hm]

theorem declaredVersion_iff {ms m : List (Bytes × Json)} (hm : Json.toAnyMembers ms = some m) (cv : Bytes) :
    declaredVersion (GoMap.ofList m) = .ok cv ↔ DeclaredVersion ms cv := by
  rw [strOrEmpty_iff hm]
  unfold declaredVersion
  split
  · rename_i hg; simp [hg]
  · rename_i hg; simp [hg]
  · rename_i w hw hg
    simp only [hg, reduceCtorEq, Option.some.injEq, false_and, or_false, false_iff]
    exact hw cv

theorem versionPool_ok {l : List Json} {cv : Bytes} {vs : List Bytes} (h : versionPool l cv = .ok vs) :
    (∀ j ∈ l, ∃ s p, j = .str s ∧ Reads s p) ∧ (cv ≠ [] → ∃ p, Reads cv p) ∧
      ∀ s, s ∈ vs ↔ (.str s ∈ l ∨ (s ≠ [] ∧ s = cv)) ∧ ∃ p, Reads s p ∧ LexLe p (1, 1, 0) := by
  unfold versionPool at h
  cases hr : readVersions l with
  | err e => rw [hr] at h; simp at h
  | panic => rw [hr] at h; simp at h
  | ok ws =>
    rw [hr] at h
    simp only [Out.bind_ok] at h
    obtain ⟨h1, h2⟩ := readVersions_ok hr
    refine ⟨h1, ?_⟩
    by_cases hcv : cv = []
    · rw [if_pos hcv, Out.ok.injEq] at h
      subst h
      refine ⟨fun h => absurd hcv h, ?_⟩
      intro s
      rw [h2]
      constructor
      · rintro ⟨a, b⟩; exact ⟨Or.inl a, b⟩
      · rintro ⟨a | ⟨a, a'⟩, b⟩
        · exact ⟨a, b⟩
        · exact absurd (a'.trans hcv) a
    · rw [if_neg hcv] at h
      cases hg : gt cv currentVersion with
      | err e => rw [hg] at h; simp at h
      | panic => rw [hg] at h; simp at h
      | ok g =>
        rw [hg] at h
        simp only [Out.ok.injEq] at h
        obtain ⟨p, hp, hgp⟩ := gt_current hg
        refine ⟨fun _ => ⟨p, hp⟩, ?_⟩
        intro s
        subst h
        cases g with
        | true =>
          simp only [if_true, h2]
          constructor
          · rintro ⟨a, b⟩; exact ⟨Or.inl a, b⟩
          · rintro ⟨a | ⟨a, rfl⟩, q, hq, hle⟩
            · exact ⟨a, q, hq, hle⟩
            · rw [c01_reads_unique hq hp] at hle
              exact absurd (hgp.2 hle) (by simp)
        | false =>
          simp only [Bool.false_eq_true, if_false, List.mem_append, List.mem_singleton, h2]
          constructor
          · rintro (⟨a, b⟩ | rfl)
            · exact ⟨Or.inl a, b⟩
            · exact ⟨Or.inr ⟨hcv, rfl⟩, p, hp, hgp.1 rfl⟩
          · rintro ⟨a | ⟨a, rfl⟩, b⟩
            · exact Or.inl ⟨a, b⟩
            · exact Or.inr rfl

theorem versionPool_total {l : List Json} {cv : Bytes} (h : ∀ j ∈ l, ∃ s p, j = .str s ∧ Reads s p)
    (hc : cv ≠ [] → ∃ p, Reads cv p) : ∃ vs, versionPool l cv = .ok vs := by
  obtain ⟨vs, hvs⟩ := readVersions_total h
  by_cases hcv : cv = []
  · exact ⟨vs, by simp [versionPool, hvs, hcv]⟩
  · obtain ⟨p, hp⟩ := hc hcv
    obtain ⟨g, hg, _⟩ := c01_gt hp reads_current
    exact ⟨if g then vs else vs ++ [cv], by simp [versionPool, hvs, hcv, hg]⟩

theorem sorted_getLast {sort : List Bytes → List Bytes} (hsort : VersionSorter sort) {vs : List Bytes} {v : Bytes}
    (hr : ∀ v ∈ vs, ∃ p, Reads v p) (h : (sort vs).getLast? = some v) :
    v ∈ vs ∧ ∀ w ∈ vs, ∀ p q, Reads v p → Reads w q → LexLe q p := by
  obtain ⟨pre, hpre⟩ := List.getLast?_eq_some_iff.1 h
  have hp := hsort.perm vs
  have hs := hsort.sorted vs hr
  rw [hpre] at hp hs
  refine ⟨hp.mem_iff.1 (by simp), ?_⟩
  intro w hw p q hvp hwq
  have hw' := hp.mem_iff.2 hw
  rw [List.mem_append, List.mem_singleton] at hw'
  rcases hw' with hw' | rfl
  · exact (List.pairwise_append.1 hs).2.2 w hw' v (by simp) q p hwq hvp
  · exact Or.inl (c01_reads_unique hwq hvp)

theorem readVersion_ok {sort : List Bytes → List Bytes} (hsort : VersionSorter sort) {ms m : List (Bytes × Json)}
    (hm : Json.toAnyMembers ms = some m) {v : Bytes} (h : readVersion sort (GoMap.ofList m) = .ok v) : Selects ms v := by
  unfold readVersion at h
  cases hD : declaredVersion (GoMap.ofList m) with
  | err e => rw [hD] at h; simp at h
  | panic => rw [hD] at h; simp at h
  | ok cv =>
    have hd := (declaredVersion_iff hm cv).1 hD
    rw [hD] at h
    refine ⟨cv, hd, ?_⟩
    simp only [Out.bind_ok] at h
    split at h
    · rename_i hg
      cases h
      exact Or.inl ⟨(get?_ofList_none hm).1 hg, rfl⟩
    · rename_i rvs hg
      right
      obtain ⟨l, hl, hla⟩ := (get?_arr hm).1 hg
      cases hvp : versionPool rvs cv with
      | err e => rw [hvp] at h; simp at h
      | panic => rw [hvp] at h; simp at h
      | ok vs =>
        rw [hvp] at h
        simp only [Out.bind_ok] at h
        obtain ⟨h1, h2, h3⟩ := versionPool_ok hvp
        have hall : ∀ j ∈ l, ∃ s p, j = .str s ∧ Reads s p := by
          have := (toAnyList_all_str hla (P := fun s => ∃ p, Reads s p)).1 (fun j hj => by
            obtain ⟨s, p, e, r⟩ := h1 j hj; exact ⟨s, e, p, r⟩)
          intro j hj
          obtain ⟨s, e, p, r⟩ := this j hj
          exact ⟨s, p, e, r⟩
        have hcand : ∀ w q, Candidate ms l w q ↔ w ∈ vs ∧ Reads w q := by
          intro w q
          have hcv : LastMember ms b!"cniVersion" (.str w) ∧ w ≠ [] ↔ w ≠ [] ∧ w = cv := by
            constructor
            · rintro ⟨a, b⟩
              rcases hd with hd | ⟨hd, _⟩
              · have := lastMember_unique a hd
                cases this; exact ⟨b, rfl⟩
              · exact absurd hd (lastMember_not_noMember a)
            · rintro ⟨b, rfl⟩
              rcases hd with hd | ⟨_, hd⟩
              · exact ⟨hd, b⟩
              · exact absurd hd b
          unfold Candidate
          rw [h3, ← toAnyList_str hla]
          constructor
          · rintro ⟨a | ⟨a, b⟩, hr, hle⟩
            · exact ⟨⟨Or.inl a, q, hr, hle⟩, hr⟩
            · exact ⟨⟨Or.inr (hcv.1 ⟨b, a⟩), q, hr, hle⟩, hr⟩
          · rintro ⟨⟨a, p, hr, hle⟩, hq⟩
            rw [c01_reads_unique hr hq] at hle
            refine ⟨?_, hq, hle⟩
            rcases a with a | a
            · exact Or.inl a
            · exact Or.inr ⟨a.1, (hcv.2 a).1⟩
        have hreads : ∀ w ∈ vs, ∃ p, Reads w p := by
          intro w hw
          obtain ⟨_, p, hp, _⟩ := (h3 w).1 hw
          exact ⟨p, hp⟩
        refine ⟨l, hl, hall, h2, ?_⟩
        split at h
        · rename_i hlast
          cases h
          right
          refine ⟨rfl, ?_⟩
          intro w q hc
          have : vs = [] := by
            have := hsort.perm vs
            rw [List.getLast?_eq_none_iff.1 hlast] at this
            exact (List.Perm.nil_eq this).symm
          have hw := ((hcand w q).1 hc).1
          rw [this] at hw; simp at hw
        · rename_i v' hlast
          cases h
          left
          obtain ⟨hv, hmax⟩ := sorted_getLast hsort hreads hlast
          obtain ⟨p, hp⟩ := hreads v hv
          refine ⟨p, (hcand v p).2 ⟨hv, hp⟩, ?_⟩
          intro w q hc
          obtain ⟨hw, hq⟩ := (hcand w q).1 hc
          exact hmax w hw p q hp hq
    · cases h

theorem readVersion_total (sort : List Bytes → List Bytes) {ms m : List (Bytes × Json)}
    (hm : Json.toAnyMembers ms = some m) {v : Bytes} (h : Selects ms v) : ∃ v', readVersion sort (GoMap.ofList m) = .ok v' := by
  obtain ⟨cv, hd, h⟩ := h
  unfold readVersion
  rw [(declaredVersion_iff hm cv).2 hd, Out.bind_ok]
  rcases h with ⟨hn, _⟩ | ⟨vs, hvs, hall, hc, _⟩
  · rw [(get?_ofList_none hm).2 hn]; exact ⟨_, rfl⟩
  · have : ∃ l', Json.toAnyList vs = some l' := by
      obtain ⟨w, hw, _⟩ := lastMember_toAny hm hvs
      simp only [Json.toAny, Option.map_eq_some_iff] at hw
      obtain ⟨l', hl', _⟩ := hw
      exact ⟨l', hl'⟩
    obtain ⟨l', hl'⟩ := this
    rw [(get?_arr hm).2 ⟨vs, hvs, hl'⟩]
    have hall' : ∀ j ∈ l', ∃ s p, j = .str s ∧ Reads s p := by
      have := (toAnyList_all_str hl' (P := fun s => ∃ p, Reads s p)).2 (fun j hj => by
        obtain ⟨s, p, e, r⟩ := hall j hj; exact ⟨s, e, p, r⟩)
      intro j hj
      obtain ⟨s, e, p, r⟩ := this j hj
      exact ⟨s, p, e, r⟩
    obtain ⟨pool, hpool⟩ := versionPool_total hall' hc
    simp only [hpool, Out.bind_ok]
    split <;> exact ⟨_, rfl⟩

theorem versionPool_no_panic (l : List Json) (cv : Bytes) : versionPool l cv ≠ .panic := by
  intro hv
  unfold versionPool at hv
  cases hr : readVersions l with
  | panic => exact readVersions_no_panic _ hr
  | err e => rw [hr] at hv; simp at hv
  | ok ws =>
    rw [hr] at hv
    simp only [Out.bind_ok] at hv
    split at hv
    · cases hv
    · cases hg : gt cv currentVersion with
      | panic => exact gt_no_panic _ _ hg
      | err e => rw [hg] at hv; simp at hv
      | ok g => rw [hg] at hv; simp at hv

theorem readVersion_no_panic (sort : List Bytes → List Bytes) (m : GoMap Json) : readVersion sort m ≠ .panic := by
  intro h
  unfold readVersion at h
  cases hD : declaredVersion m with
  | panic => unfold declaredVersion at hD; split at hD <;> cases hD
  | err e => rw [hD] at h; simp at h
  | ok cv =>
    rw [hD] at h
    simp only [Out.bind_ok] at h
    split at h
    · cases h
    · rename_i rvs _
      cases hv : versionPool rvs cv with
      | err e => rw [hv] at h; simp at h
      | ok vs => rw [hv] at h; simp only [Out.bind_ok] at h; split at h <;> cases h
      | panic => exact versionPool_no_panic _ _ hv
    · cases h


/-! ### C02 -/

/-- The sorting the model uses is a version sorter. -/
theorem versionSorter_insertion : VersionSorter versionSort := by
  refine ⟨fun l => (List.reverse_perm _).trans ((sortBy_perm _ _).trans (List.reverse_perm _)), ?_⟩
  intro l hl
  unfold versionSort
  rw [List.pairwise_reverse]
  have hl' : ∀ v ∈ l.reverse, ∃ p, Reads v p := fun v hv => hl v (List.mem_reverse.1 hv)
  have key : ∀ a b p q, Reads a p → Reads b q → (versionCmpNeg a b = true → LexLe p q) ∧ (versionCmpNeg a b = false → LexLe q p) := by
    intro a b p q ha hb
    unfold versionCmpNeg
    obtain ⟨r, hr, hlt⟩ := c01_gt ha hb
    rw [hr]
    by_cases e : a = b
    · subst e
      rw [c01_reads_unique ha hb]
      simp [LexLe]
    · cases r with
      | true =>
        refine ⟨by simp, fun _ => ?_⟩
        exact Or.inr (hlt.1 rfl)
      | false =>
        refine ⟨fun _ => ?_, by simp [e]⟩
        rw [lexLe_iff_not_lt, ← hlt]; simp
  refine sortBy_pairwise_rel (R := fun a b => ∀ p q, Reads b p → Reads a q → LexLe p q) ?_ ?_ ?_
  · intro a _ b _ h p q hb ha
    exact (key a b q p ha hb).2 (by simpa using h)
  · intro a _ b _ h p q ha hb
    exact (key a b p q ha hb).1 (by simpa using h)
  · intro a _ b hb c _ h1 h2 p q hc ha
    obtain ⟨r, hr⟩ := hl' b hb
    exact lexLe_trans (h2 p r hc hr) (h1 r q hr ha)

/-! ### inlined plugins -/

theorem toAnyList_get {l l' : List Json} (h : Json.toAnyList l = some l') :
    l.length = l'.length ∧ ∀ i (h1 : i < l.length) (h2 : i < l'.length), l[i].toAny = some l'[i] := by
  induction l generalizing l' with
  | nil => simp [Json.toAnyList] at h; subst h; simp
  | cons j l ih =>
    simp only [Json.toAnyList] at h
    split at h
    · rename_i j' l'' hj hl
      simp only [Option.some.injEq] at h; subst h
      obtain ⟨h1, h2⟩ := ih hl
      refine ⟨by simp [h1], ?_⟩
      intro i hi hi'
      cases i with
      | zero => exact hj
      | succ i => exact h2 i (by simpa using hi) (by simpa using hi')
    · cases h

theorem pluginConf_of_any {j j' : Json} (hw : j.WF) (hj : j.toAny = some j') (p : PluginConfig) :
    (pluginConfFromBytes j'.print = .ok p) ↔ PluginLoads j p ∧ p.bytes = j'.print := by
  have hw' := Json.toAny_WF _ _ hw hj
  constructor
  · intro h
    obtain ⟨hb, ht, j0, hj0, hc⟩ := pluginConfFromBytes_ok h
    rw [Json.parse_print _ hw'] at hj0
    cases hj0
    refine ⟨?_, hb⟩
    cases j with
    | obj ms =>
      simp only [Json.toAny, Option.map_eq_some_iff] at hj
      obtain ⟨m, hm, rfl⟩ := hj
      exact ⟨ms, _, rfl, by rw [hb]; exact Json.parse_print _ hw', injected_insertAll hm (by simp), hc, ht⟩
    | null =>
      simp [Json.toAny] at hj; subst hj
      have : decPluginConf .null = some {} := by decide
      rw [this, Option.some.injEq] at hc
      rw [← hc] at ht; exact absurd rfl ht
    | bool b => simp [Json.toAny] at hj; subst hj; simp [decPluginConf, structMembers] at hc
    | str b => simp [Json.toAny] at hj; subst hj; simp [decPluginConf, structMembers] at hc
    | num b =>
      simp only [Json.toAny, Option.map_eq_some_iff] at hj; obtain ⟨_, _, rfl⟩ := hj
      simp [decPluginConf, structMembers] at hc
    | arr b =>
      simp only [Json.toAny, Option.map_eq_some_iff] at hj; obtain ⟨_, _, rfl⟩ := hj
      simp [decPluginConf, structMembers] at hc
  · rintro ⟨⟨ms, M, rfl, hp, hi, hc, ht⟩, hb⟩
    simp only [Json.toAny, Option.map_eq_some_iff] at hj
    obtain ⟨m, hm, rfl⟩ := hj
    have e := injected_unique hi (injected_insertAll hm (by simp))
    have := pluginConfFromBytes_intro (Json.parse_print _ hw') (c := p.network) (by rw [← hc, e]; rfl) ht
    rw [this, ← hb]

theorem pluginConf_total {j j' : Json} (hw : j.WF) (hj : j.toAny = some j') {p : PluginConfig} (h : PluginLoads j p) :
    ∃ p', pluginConfFromBytes j'.print = .ok p' := by
  have hw' := Json.toAny_WF _ _ hw hj
  obtain ⟨ms, M, rfl, hp, hi, hc, ht⟩ := h
  simp only [Json.toAny, Option.map_eq_some_iff] at hj
  obtain ⟨m, hm, rfl⟩ := hj
  have e := injected_unique hi (injected_insertAll hm (by simp))
  exact ⟨_, pluginConfFromBytes_intro (Json.parse_print _ hw') (c := p.network) (by rw [← hc, e]; rfl) ht⟩

theorem readPlugins_ok {l : List Json} {ps : List PluginConfig} (h : readPlugins l = .ok ps) :
    l.length = ps.length ∧ ∀ i (h1 : i < l.length) (h2 : i < ps.length), pluginConfFromBytes l[i].print = .ok ps[i] := by
  induction l generalizing ps with
  | nil => simp [readPlugins] at h; subst h; simp
  | cons j l ih =>
    simp only [readPlugins] at h
    split at h
    · cases h
    · cases h
    · rename_i p hp
      cases hr : readPlugins l with
      | err e => rw [hr] at h; simp at h
      | panic => rw [hr] at h; simp at h
      | ok ps' =>
        rw [hr] at h
        simp only [Out.bind_ok, Out.ok.injEq] at h
        subst h
        obtain ⟨h1, h2⟩ := ih hr
        refine ⟨by simp [h1], ?_⟩
        intro i hi hi'
        cases i with
        | zero => exact hp
        | succ i => exact h2 i (by simpa using hi) (by simpa using hi')

theorem readPlugins_total {l : List Json} (h : ∀ j ∈ l, ∃ p, pluginConfFromBytes j.print = .ok p) : ∃ ps, readPlugins l = .ok ps := by
  induction l with
  | nil => exact ⟨_, rfl⟩
  | cons j l ih =>
    obtain ⟨p, hp⟩ := h j (by simp)
    obtain ⟨ps, hps⟩ := ih (fun x hx => h x (by simp [hx]))
    exact ⟨p :: ps, by simp [readPlugins, hp, hps]⟩

theorem readPlugins_no_panic (l : List Json) : readPlugins l ≠ .panic := by
  induction l with
  | nil => simp [readPlugins]
  | cons j l ih =>
    simp only [readPlugins]
    split
    · simp
    · rename_i h; exact absurd h (pluginConfFromBytes_no_panic _)
    · cases hr : readPlugins l with
      | panic => exact absurd hr ih
      | err e => simp
      | ok ps => simp

theorem readName_iff {ms m : List (Bytes × Json)} (hm : Json.toAnyMembers ms = some m) (n : Bytes) :
    readName (GoMap.ofList m) = .ok n ↔ LastMember ms b!"name" (.str n) := by
  rw [← get?_str hm]
  unfold readName
  split
  · rename_i hg; simp [hg]
  · rename_i hg; simp [hg]
  · rename_i w hw hg
    simp only [hg, reduceCtorEq, Option.some.injEq, false_iff]
    exact hw n

theorem WF_lastMember {ms : List (Bytes × Json)} (hw : (Json.obj ms).WF) {k : Bytes} {v : Json} (h : LastMember ms k v) : v.WF := by
  obtain ⟨a, b, rfl, _⟩ := h
  simp only [Json.WF] at hw
  rw [WFMembers_iff] at hw
  exact (hw (k, v) (by simp)).2

/-! ### C09 -/

theorem finishList_ok {base L : NetConfList} {ms m : List (Bytes × Json)} (hw : (Json.obj ms).WF) (hm : Json.toAnyMembers ms = some m)
    (hb : base.plugins = []) (h : finishList base (GoMap.ofList m) = .ok L) :
    ∃ ps, L = { base with plugins := ps } ∧
      ((NoMember ms b!"plugins" ∧ base.loadOnlyInlined = false ∧ ps = []) ∨
        ∃ l, LastMember ms b!"plugins" (.arr l) ∧ l ≠ [] ∧ l.length = ps.length ∧
          ∀ i (h : i < l.length) (h' : i < ps.length), PluginLoads l[i] ps[i]) := by
  unfold finishList at h
  split at h
  · rename_i hg
    split at h
    · cases h
    · rename_i hlo
      cases h
      exact ⟨[], by rw [← hb], Or.inl ⟨(get?_ofList_none hm).1 hg, by simpa using hlo, rfl⟩⟩
  · rename_i l' hg
    obtain ⟨l, hl, hla⟩ := (get?_arr hm).1 hg
    split at h
    · cases h
    · rename_i hne
      cases hr : readPlugins l' with
      | err e => rw [hr] at h; simp at h
      | panic => rw [hr] at h; simp at h
      | ok ps =>
        rw [hr] at h
        simp only [Out.bind_ok, Out.ok.injEq] at h
        subst h
        refine ⟨ps, rfl, Or.inr ⟨l, hl, ?_, ?_⟩⟩
        · rintro rfl
          simp [Json.toAnyList] at hla; exact hne hla
        · obtain ⟨h1, h2⟩ := toAnyList_get hla
          obtain ⟨h3, h4⟩ := readPlugins_ok hr
          refine ⟨by omega, ?_⟩
          intro i hi hi'
          have hwl := WF_lastMember hw hl
          simp only [Json.WF] at hwl
          rw [WFList_iff] at hwl
          exact ((pluginConf_of_any (hwl _ (List.getElem_mem hi)) (h2 i hi (by omega)) _).1 (h4 i (by omega) hi')).1
  · cases h

theorem list_load {sort : List Bytes → List Bytes} {b : Bytes} {ms m : List (Bytes × Json)} (hp : Json.parse b = some (.obj ms))
    (hm : Json.toAnyMembers ms = some m) : networkConfFromBytesWith sort b =
      (readName (GoMap.ofList m) >>= fun name => readVersion sort (GoMap.ofList m) >>= fun cv =>
        readBool (GoMap.ofList m) b!"disableCheck" >>= fun dc => readBool (GoMap.ofList m) b!"disableGC" >>= fun dg =>
        readBool (GoMap.ofList m) b!"loadOnlyInlinedPlugins" >>= fun lo =>
        finishList { name := name, cniVersion := cv, disableCheck := dc, disableGC := dg, loadOnlyInlined := lo, bytes := b }
          (GoMap.ofList m)) := by
  simp only [networkConfFromBytesWith, hp, rawMap_obj, hm, Option.map_some, Option.getD_some]

theorem Out.bind_eq_ok {α β : Type} {o : Out α} {f : α → Out β} {b : β} (h : (o >>= f) = .ok b) : ∃ a, o = .ok a ∧ f a = .ok b := by
  cases o with
  | ok a => exact ⟨a, rfl, h⟩
  | err e => simp at h
  | panic => simp at h

/-- C09: a loaded list carries the declared name, version, flags and inlined plugins in order (and C02: the selected version). -/
theorem c09_loaded (sort : List Bytes → List Bytes) (hsort : VersionSorter sort) (b : Bytes) (L : NetConfList)
    (h : networkConfFromBytesWith sort b = .ok L) : ListLoads b L := by
  cases hp : Json.parse b with
  | none => simp [networkConfFromBytesWith, hp] at h
  | some j =>
    cases j with
    | obj ms =>
      cases hm : Json.toAnyMembers ms with
      | none => simp [networkConfFromBytesWith, hp, rawMap_obj, hm] at h
      | some m =>
        rw [list_load hp hm] at h
        obtain ⟨name, h1, h⟩ := Out.bind_eq_ok h
        obtain ⟨cv, h2, h⟩ := Out.bind_eq_ok h
        obtain ⟨dc, h3, h⟩ := Out.bind_eq_ok h
        obtain ⟨dg, h4, h⟩ := Out.bind_eq_ok h
        obtain ⟨lo, h5, h⟩ := Out.bind_eq_ok h
        obtain ⟨ps, rfl, h6⟩ := finishList_ok (Json.parse_WF hp) hm rfl h
        exact ⟨ms, hp, (members_inRange (Json.parse_WF hp)).1 ⟨m, hm⟩, (readName_iff hm _).1 h1, readVersion_ok hsort hm h2, (readBool_iff hm _ _).1 h3,
          (readBool_iff hm _ _).1 h4, (readBool_iff hm _ _).1 h5, rfl, h6⟩
    | null => simp [networkConfFromBytesWith, hp, rawMap, decAnyMap, readName, GoMap.get?] at h
    | _ => simp [networkConfFromBytesWith, hp, rawMap, decAnyMap] at h

/-- C09: loading succeeds exactly on the documents that state a list. -/
theorem c09_loads_iff (sort : List Bytes → List Bytes) (hsort : VersionSorter sort) (b : Bytes) :
    (∃ L, networkConfFromBytesWith sort b = .ok L) ↔ ∃ L, ListLoads b L := by
  constructor
  · rintro ⟨L, h⟩; exact ⟨L, c09_loaded sort hsort b L h⟩
  · rintro ⟨L, ms, hp, hm, h1, h2, h3, h4, h5, _, h6⟩
    obtain ⟨m, hm⟩ := (members_inRange (Json.parse_WF hp)).2 hm
    rw [list_load hp hm, (readName_iff hm _).2 h1]
    obtain ⟨cv, hcv⟩ := readVersion_total sort hm h2
    rw [Out.bind_ok, hcv, Out.bind_ok, (readBool_iff hm _ _).2 h3, Out.bind_ok, (readBool_iff hm _ _).2 h4, Out.bind_ok,
      (readBool_iff hm _ _).2 h5, Out.bind_ok]
    unfold finishList
    rcases h6 with ⟨hn, hlo, _⟩ | ⟨l, hl, hne, hlen, hall⟩
    · rw [(get?_ofList_none hm).2 hn]
      simp only [hlo]
      exact ⟨_, rfl⟩
    · obtain ⟨w, hw, hg⟩ := lastMember_toAny hm hl
      simp only [Json.toAny, Option.map_eq_some_iff] at hw
      obtain ⟨l', hl', rfl⟩ := hw
      rw [hg]
      obtain ⟨e1, e2⟩ := toAnyList_get hl'
      have hne' : l' ≠ [] := by rintro rfl; apply hne; exact List.eq_nil_of_length_eq_zero (by simpa using e1)
      simp only [hne', if_false]
      have : ∃ ps, readPlugins l' = .ok ps := by
        apply readPlugins_total
        intro j' hj'
        obtain ⟨i, hi, rfl⟩ := List.getElem_of_mem hj'
        have hwl := WF_lastMember (Json.parse_WF hp) hl
        simp only [Json.WF] at hwl
        rw [WFList_iff] at hwl
        exact pluginConf_total (hwl _ (List.getElem_mem (by omega))) (e2 i (by omega) hi) (hall i (by omega) (by omega))
      obtain ⟨ps, hps⟩ := this
      rw [hps]
      exact ⟨_, rfl⟩

theorem finishList_no_panic (base : NetConfList) (m : GoMap Json) : finishList base m ≠ .panic := by
  intro h
  unfold finishList at h
  split at h
  · split at h <;> cases h
  · split at h
    · cases h
    · cases hr : readPlugins _ with
      | ok a => rw [hr] at h; simp at h
      | err e => rw [hr] at h; simp at h
      | panic => exact readPlugins_no_panic _ hr
  · cases h

/-- C09: loading never crashes. -/
theorem c09_no_panic (sort : List Bytes → List Bytes) (b : Bytes) : networkConfFromBytesWith sort b ≠ .panic := by
  intro h
  have bp : ∀ {α β : Type} {o : Out α} {f : α → Out β}, (o >>= f) = .panic → o = .panic ∨ ∃ a, o = .ok a ∧ f a = .panic := by
    intro α β o f h
    cases o with
    | ok a => exact Or.inr ⟨a, rfl, h⟩
    | err e => simp at h
    | panic => exact Or.inl rfl
  have hb : ∀ m k, readBool m k ≠ .panic := by
    intro m k
    unfold readBool
    repeat' split
    all_goals simp
  unfold networkConfFromBytesWith at h
  split at h
  · cases h
  · split at h
    · cases h
    · rename_i m0 _
      rcases bp h with h | ⟨_, _, h⟩
      · unfold readName at h; split at h <;> cases h
      rcases bp h with h | ⟨_, _, h⟩
      · exact readVersion_no_panic _ _ h
      rcases bp h with h | ⟨_, _, h⟩
      · exact hb _ _ h
      rcases bp h with h | ⟨_, _, h⟩
      · exact hb _ _ h
      rcases bp h with h | ⟨_, _, h⟩
      · exact hb _ _ h
      exact finishList_no_panic _ _ h

/-- A list with duplicate keys, a flag written as a string, several versions and two plugins. -/
example : ∃ L, networkConfFromBytes b!"{\"name\":\"x\",\"name\":\"n\",\"disableGC\":\"True\",\"cniVersions\":[\"1.0.0\",\"0.4\",\"2.0\"],\"plugins\":[{\"type\":\"a\"},{\"type\":\"b\"}]}" = .ok L
    ∧ L.name = b!"n" ∧ L.disableGC = true ∧ L.cniVersion = b!"1.0.0" ∧ L.plugins.length = 2 := by
  have : ((networkConfFromBytes b!"{\"name\":\"x\",\"name\":\"n\",\"disableGC\":\"True\",\"cniVersions\":[\"1.0.0\",\"0.4\",\"2.0\"],\"plugins\":[{\"type\":\"a\"},{\"type\":\"b\"}]}").toOption.map
      fun L => (L.name, L.disableGC, L.cniVersion, L.plugins.length)) = some (b!"n", true, b!"1.0.0", 2) := by decide +kernel
  cases h : networkConfFromBytes b!"{\"name\":\"x\",\"name\":\"n\",\"disableGC\":\"True\",\"cniVersions\":[\"1.0.0\",\"0.4\",\"2.0\"],\"plugins\":[{\"type\":\"a\"},{\"type\":\"b\"}]}" with
  | err e => rw [h] at this; simp [Out.toOption] at this
  | panic => rw [h] at this; simp [Out.toOption] at this
  | ok L =>
    rw [h] at this
    simp only [Out.toOption, Option.map_some, Option.some.injEq, Prod.mk.injEq] at this
    exact ⟨L, rfl, this.1, this.2.1, this.2.2.1, this.2.2.2⟩

/-! ### C02 -/

/-- C02: with a `cniVersions` array the loaded version is a greatest one among the declared versions this library
supports; if there is none, the declared `cniVersion`; every entry was well formed. -/
theorem c02_selected (sort : List Bytes → List Bytes) (hsort : VersionSorter sort) (b : Bytes) (L : NetConfList)
    (ms : List (Bytes × Json)) (vs : List Json) (h : networkConfFromBytesWith sort b = .ok L)
    (hp : Json.parse b = some (.obj ms)) (hv : LastMember ms b!"cniVersions" (.arr vs)) :
    (∀ j ∈ vs, ∃ s p, j = .str s ∧ Reads s p) ∧
    ((∃ w q, Candidate ms vs w q) → ∃ p, Candidate ms vs L.cniVersion p ∧ ∀ w q, Candidate ms vs w q → LexLe q p) ∧
    ((∀ w q, ¬ Candidate ms vs w q) → DeclaredVersion ms L.cniVersion) := by
  obtain ⟨ms', hp', _, _, ⟨cv, hd, hs⟩, _⟩ := c09_loaded sort hsort b L h
  rw [hp] at hp'; cases hp'
  rcases hs with ⟨hn, _⟩ | ⟨vs', hv', hall, _, hsel⟩
  · exact absurd hn (lastMember_not_noMember hv)
  · have := lastMember_unique hv hv'
    cases this
    refine ⟨hall, ?_, ?_⟩
    · rintro ⟨w, q, hc⟩
      rcases hsel with hsel | ⟨_, hno⟩
      · exact hsel
      · exact absurd hc (hno w q)
    · intro hno
      rcases hsel with ⟨p, hc, _⟩ | ⟨e, _⟩
      · exact absurd hc (hno _ _)
      · rw [e]; exact hd

/-- C02: without `cniVersions` the declared version is kept as it is. -/
theorem c02_plain (sort : List Bytes → List Bytes) (hsort : VersionSorter sort) (b : Bytes) (L : NetConfList)
    (ms : List (Bytes × Json)) (h : networkConfFromBytesWith sort b = .ok L)
    (hp : Json.parse b = some (.obj ms)) (hv : NoMember ms b!"cniVersions") : DeclaredVersion ms L.cniVersion := by
  obtain ⟨ms', hp', _, _, ⟨cv, hd, hs⟩, _⟩ := c09_loaded sort hsort b L h
  rw [hp] at hp'; cases hp'
  rcases hs with ⟨_, e⟩ | ⟨vs', hv', _⟩
  · rw [e]; exact hd
  · exact absurd hv (lastMember_not_noMember hv')

/-- C02: a malformed or non-string entry makes loading fail. -/
theorem c02_malformed (sort : List Bytes → List Bytes) (hsort : VersionSorter sort) (b : Bytes)
    (ms : List (Bytes × Json)) (vs : List Json) (hp : Json.parse b = some (.obj ms))
    (hv : LastMember ms b!"cniVersions" (.arr vs)) (hbad : ∃ j ∈ vs, ¬ ∃ s p, j = .str s ∧ Reads s p) :
    ∃ e, networkConfFromBytesWith sort b = .err e := by
  cases h : networkConfFromBytesWith sort b with
  | err e => exact ⟨e, rfl⟩
  | panic => exact absurd h (c09_no_panic sort b)
  | ok L =>
    obtain ⟨j, hj, hb⟩ := hbad
    exact absurd ((c02_selected sort hsort b L ms vs h hp hv).1 j hj) hb

/-- The declared versions may tie; too new ones are ignored. -/
example : ((networkConfFromBytes b!"{\"name\":\"n\",\"cniVersion\":\"0.3.1\",\"cniVersions\":[\"2.0.0\",\"1.0\",\"0.4.0\",\"1.0.0\"]}").toOption.map (·.cniVersion))
    = some b!"1.0" := by decide +kernel

end Verif
