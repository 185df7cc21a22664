/- C42, part 2: the values of arguments. -/
import Verif.Props.Env
import Verif.Props.AddrRead
import Verif.Spec.ArgValue
import Verif.Base.CaseLemmas

namespace Verif
open Spec

theorem anyCase_digit {d : UInt8} {t : Bytes} (hd : ¬ (97 ≤ d.toNat ∧ d.toNat ≤ 122)) : AnyCase [d] t ↔ t = [d] := by
  constructor
  · intro h
    cases h with
    | same _ h => cases h; rfl
    | upper h1 _ _ => exact absurd h1 hd
  · rintro rfl
    exact .same _ .nil

theorem boolText_true (t : Bytes) : (toLower t = b!"1" ∨ toLower t = b!"true") ↔ BoolText t true := by
  rw [toLower_iff (by decide), toLower_iff (by decide)]
  exact or_congr (anyCase_digit (by decide)) Iff.rfl

theorem boolText_false (t : Bytes) : (toLower t = b!"0" ∨ toLower t = b!"false") ↔ BoolText t false := by
  rw [toLower_iff (by decide), toLower_iff (by decide)]
  exact or_congr (anyCase_digit (by decide)) Iff.rfl

theorem boolText_one {t : Bytes} (h : BoolText t true) (h' : BoolText t false) : False := by
  rw [← boolText_true] at h
  rw [← boolText_false] at h'
  rcases h with h | h <;> rcases h' with h' | h' <;> rw [h] at h' <;> revert h' <;> decide

/-- C42: which texts a field takes, and what it holds then. A truth value is `1` or `true` and `0` or `false`, in upper or lower case letters; a field
without `UnmarshalText` takes nothing. -/
theorem c42_values (f : ArgField) (t : Bytes) (f' : ArgField) : f.set t = some f' ↔ Takes f t f' := by
  cases f with
  | bool b =>
    simp only [ArgField.set]
    split
    · rename_i h
      replace h := (boolText_true t).1 h
      constructor
      · intro e; cases e; exact .bool h
      · intro e
        cases e with
        | @bool _ b' _ e =>
        cases b' with
        | true => rfl
        | false => exact (boolText_one h e).elim
    · rename_i h
      replace h := fun e => h ((boolText_true t).2 e)
      split
      · rename_i h'
        replace h' := (boolText_false t).1 h'
        constructor
        · intro e; cases e; exact .bool h'
        · intro e
          cases e with
          | @bool _ b' _ e =>
          cases b' with
          | true => exact absurd e h
          | false => rfl
      · rename_i h'
        replace h' := fun e => h' ((boolText_false t).2 e)
        constructor
        · intro e; cases e
        · intro e
          cases e with
          | @bool _ b' _ e =>
          cases b' with
          | true => exact absurd e h
          | false => exact absurd e h'
  | str s =>
    constructor
    · intro e; cases e; exact .str
    · intro e; cases e; rfl
  | custom ok last =>
    simp only [ArgField.set]
    split
    · rename_i h
      constructor
      · intro e; cases e; exact .custom h
      · intro e; cases e; rfl
    · rename_i h
      constructor
      · intro e; cases e
      · intro e
        cases e with
        | custom e => exact absurd e h
  | noText =>
    constructor
    · intro e; cases e
    · intro e; cases e

theorem ignores_iff (b : Bool) (l : List (Bytes × Bytes)) : IgnoresUnknown b l ↔ EndsIgnoring b l := by
  simp only [IgnoresUnknown, EndsIgnoring, boolText_true]

/-- C42: LoadArgs on well-formed pairs, by the values alone. It succeeds iff every field that is named takes each text given for it and either all names
are those of fields or IgnoreUnknown ends up true, wherever it appears; then every field holds what its last text stands for, or what it held before if
it is not named, and there are no others. -/
theorem c42_load_values (c : Container) (b : Bool) (hign : GoMap.get? c b!"IgnoreUnknown" = some (.bool b))
    (l : List (Bytes × Bytes)) (hne : l ≠ []) (hc : CleanPairs l) :
    (loadArgs (pairsText l) c).2 ≠ .panic ∧
    ((loadArgs (pairsText l) c).2 = .ok () ↔
      (∀ p ∈ l, ∀ f, GoMap.get? c p.1 = some f → ∃ f', Takes f p.2 f') ∧
      ((∀ p ∈ l, (GoMap.get? c p.1).isSome) ∨ EndsIgnoring b l)) ∧
    ((loadArgs (pairsText l) c).2 = .ok () → ∀ k f', GoMap.get? (loadArgs (pairsText l) c).1 k = some f' ↔
      ∃ f, GoMap.get? c k = some f ∧ ((NoMember l k ∧ f' = f) ∨ ∃ v, LastMember l k v ∧ Takes f v f')) := by
  obtain ⟨h1, h2, h3, h4⟩ := c42_load c b hign l hne hc
  refine ⟨h1, ?_, fun hok k f' => ?_⟩
  · rw [h2, ignores_iff]
    simp only [Option.isSome_iff_exists, c42_values]
  · cases hk : GoMap.get? c k with
    | none =>
      rw [h4 hok k hk]
      constructor
      · intro h; cases h
      · rintro ⟨f, h, -⟩; cases h
    | some f =>
      obtain ⟨h5, h6⟩ := h3 hok k f hk
      constructor
      · intro h
        refine ⟨f, rfl, ?_⟩
        cases hr : GoMap.get? l.reverse k with
        | none =>
          have hn := noMember_iff.2 hr
          rw [h5 hn] at h
          cases h
          exact .inl ⟨hn, rfl⟩
        | some v =>
          have hv := lastMember_iff.2 hr
          rw [h6 v hv] at h
          exact .inr ⟨v, hv, (c42_values _ _ _).1 h⟩
      · rintro ⟨g, hg, ⟨hn, rfl⟩ | ⟨v, hv, ht⟩⟩
        · cases hg
          exact h5 hn
        · cases hg
          rw [h6 v hv]
          exact (c42_values _ _ _).2 ht

/-- A `net.IP` field of a struct given to LoadArgs (pkg/types/args.go:73-122 `LoadArgs` calls its `UnmarshalText`, of the Go standard library). -/
def ipField : ArgField := .custom (fun t => (IP.unmarshalText t).isSome) none

/-- C42: a field of type net.IP takes the texts of addresses, and the empty text. -/
theorem c42_ip (t : Bytes) : (∃ f, Takes ipField t f) ↔ t = [] ∨ ∃ ip, AddressText t ip := by
  have h : (∃ f, Takes ipField t f) ↔ (IP.unmarshalText t).isSome = true := by
    constructor
    · rintro ⟨f, h⟩
      cases h with
      | custom h => exact h
    · exact fun h => ⟨_, .custom h⟩
  rw [h, IP.unmarshalText]
  split
  · rename_i h
    simp [h]
  · rename_i h
    simp only [h, false_or, Option.isSome_iff_exists, c85_address]

/-! Witnesses: a struct with an address, a truth value, a text and IgnoreUnknown. -/

/-- Test data; models no code. -/
def ipContainer : Container :=
  [(b!"IgnoreUnknown", .bool false), (b!"IP", ipField), (b!"K8S_POD", .str []), (b!"Force", .bool true)]

example : BoolText b!"tRUe" true ∧ BoolText b!"FALSE" false ∧ ¬ BoolText b!"yes" true ∧ ¬ BoolText b!"yes" false ∧ ¬ BoolText b!"" true := by
  simp only [← boolText_true, ← boolText_false]
  decide +kernel

example : (loadArgs b!"IP=10.0.0.1;Force=False;X=y;IgnoreUnknown=True" ipContainer).2 = .ok () ∧
    GoMap.get? (loadArgs b!"IP=10.0.0.1;Force=False;X=y;IgnoreUnknown=True" ipContainer).1 b!"Force" = some (.bool false) := ⟨rfl, rfl⟩

example : (∃ e, (loadArgs b!"IP=10.0.0.1/8" ipContainer).2 = .err e) ∧ (∃ e, (loadArgs b!"Force=yes" ipContainer).2 = .err e) ∧
    (loadArgs b!"IP=;Force=0" ipContainer).2 = .ok () := ⟨⟨_, rfl⟩, ⟨_, rfl⟩, rfl⟩

/-- The hypotheses of `c42_load_values` are met by these pairs. -/
example : (b!"IP=10.0.0.1;Force=0") = pairsText [(b!"IP", b!"10.0.0.1"), (b!"Force", b!"0")] ∧
    GoMap.get? ipContainer b!"IgnoreUnknown" = some (.bool false) := ⟨by decide +kernel, rfl⟩

end Verif
