/- C86: what result and configuration documents say. -/
import Verif.Props.AddrRead
import Verif.Props.ArgValue
import Verif.Spec.ResultDoc
import Verif.Types.ResultJson
import Verif.Invoke.Fixup
import Verif.Props.Grammar
import Verif.Props.PluginOutput
import Verif.Spec.ConfDoc
import Verif.Libcni.Conf

namespace Verif
open Spec

/-! ### names -/

theorem foldKey_cons {c : UInt8} (hc : c.toNat < 128) (k : Bytes) : foldKey (c :: k) = lowerByte c :: foldKey k := by
  have h1 : c ≠ 0xE2 := by rintro rfl; revert hc; decide
  have h2 : c ≠ 0xC5 := by rintro rfl; revert hc; decide
  conv => lhs; unfold foldKey
  split
  · rename_i h; cases h; exact absurd rfl h1
  · rename_i h; cases h; exact absurd rfl h2
  · rename_i h; cases h; rfl
  · rename_i h; cases h

theorem lowerByte_eq_iff {c d : UInt8} : lowerByte d = lowerByte c ↔
    d = c ∨ ((65 ≤ c.toNat ∧ c.toNat ≤ 90) ∧ d.toNat = c.toNat + 32) ∨ ((97 ≤ c.toNat ∧ c.toNat ≤ 122) ∧ d.toNat + 32 = c.toNat) := by
  cases hc : isUpper c with
  | true =>
    have hr : 65 ≤ c.toNat ∧ c.toNat ≤ 90 := by
      simp only [isUpper, Bool.and_eq_true, decide_eq_true_eq, UInt8.le_iff_toNat_le] at hc
      exact hc
    have h32 : (c + 32).toNat = c.toNat + 32 := by
      rw [UInt8.toNat_add]
      show (c.toNat + 32) % 256 = _
      omega
    have e : lowerByte c = c + 32 := by simp [lowerByte, hc]
    have hu : isUpper (c + 32) = false := by
      simp only [isUpper, Bool.and_eq_false_iff, decide_eq_false_iff_not, UInt8.le_iff_toNat_le]
      right
      rw [h32]
      show ¬ _ ≤ 90
      omega
    rw [e, lowerByte_iff _ _ hu, h32]
    constructor
    · rintro (rfl | ⟨-, h⟩)
      · right; left; exact ⟨hr, h32⟩
      · left; exact UInt8.toNat_inj.1 (by omega)
    · rintro (rfl | ⟨-, h⟩ | ⟨h, -⟩)
      · right; omega
      · left; exact UInt8.toNat_inj.1 (by omega)
      · omega
  | false =>
    have e : lowerByte c = c := by simp [lowerByte, hc]
    have hn : ¬ (65 ≤ c.toNat ∧ c.toNat ≤ 90) := by
      intro h
      have : isUpper c = true := by
        simp only [isUpper, Bool.and_eq_true, decide_eq_true_eq, UInt8.le_iff_toNat_le]
        exact h
      rw [hc] at this
      cases this
    rw [e, lowerByte_iff _ _ hc]
    constructor
    · rintro (h | h)
      · exact .inl h
      · exact .inr (.inr h)
    · rintro (h | h | h)
      · exact .inl h
      · exact absurd h.1 hn
      · exact .inr h

theorem lowerByte_ascii {c d : UInt8} (hc : c.toNat < 128) (h : lowerByte d = lowerByte c) : d.toNat < 128 := by
  rcases lowerByte_eq_iff.1 h with rfl | h | h
  · exact hc
  · omega
  · omega

/-- For names of ASCII letters and signs: the names that stand for a field are those with the same folded form. -/
theorem nameFor_iff {f : Bytes} (hf : ∀ c ∈ f, c.toNat < 128) (k : Bytes) : NameFor f k ↔ foldKey k = foldKey f := by
  constructor
  · intro h
    induction h with
    | nil => rfl
    | @same f k c h ih =>
      have hc := hf c (by simp)
      rw [foldKey_cons hc, foldKey_cons hc, ih fun x hx => hf x (by simp [hx])]
    | @lower f k c d h1 h2 h ih =>
      have hc := hf c (by simp)
      rw [foldKey_cons (c := d) (by omega), foldKey_cons hc, ih (fun x hx => hf x (by simp [hx])), lowerByte_eq_iff.2 (.inr (.inl ⟨h1, h2⟩))]
    | @upper f k c d h1 h2 h ih =>
      have hc := hf c (by simp)
      rw [foldKey_cons (c := d) (by omega), foldKey_cons hc, ih (fun x hx => hf x (by simp [hx])), lowerByte_eq_iff.2 (.inr (.inr ⟨h1, h2⟩))]
    | @kelvin f k c h1 h ih =>
      have hc := hf c (by simp)
      rw [foldKey_cons hc, ← ih (fun x hx => hf x (by simp [hx]))]
      rcases h1 with rfl | rfl <;> rfl
    | @longS f k c h1 h ih =>
      have hc := hf c (by simp)
      rw [foldKey_cons hc, ← ih (fun x hx => hf x (by simp [hx]))]
      rcases h1 with rfl | rfl <;> rfl
  · intro h
    induction f generalizing k with
    | nil =>
      unfold foldKey at h
      split at h
      · cases h
      · cases h
      · cases h
      · exact .nil
    | cons c f ih =>
      have hc := hf c (by simp)
      have ih := fun k => ih (fun x hx => hf x (by simp [hx])) k
      rw [foldKey_cons hc] at h
      generalize hF : foldKey f = F at h
      unfold foldKey at h
      subst hF
      split at h
      · rename_i r
        injection h with h1 h2
        refine .kelvin ?_ (ih _ h2)
        rcases lowerByte_eq_iff.1 (show lowerByte 107 = lowerByte c by rw [← h1]; rfl) with e | e | e
        · exact .inr e.symm
        · left
          refine UInt8.toNat_inj.1 ?_
          show c.toNat = 75
          have := e.2
          change 107 = _ at this
          omega
        · have h3 := e.2
          change 139 = _ at h3
          omega
      · rename_i r
        injection h with h1 h2
        refine .longS ?_ (ih _ h2)
        rcases lowerByte_eq_iff.1 (show lowerByte 115 = lowerByte c by rw [← h1]; rfl) with e | e | e
        · exact .inr e.symm
        · left
          refine UInt8.toNat_inj.1 ?_
          show c.toNat = 83
          have := e.2
          change 115 = _ at this
          omega
        · have h3 := e.2
          change 147 = _ at h3
          omega
      · rename_i d r _ _
        injection h with h1 h2
        rcases lowerByte_eq_iff.1 h1 with rfl | ⟨h3, h4⟩ | ⟨h3, h4⟩
        · exact .same _ (ih _ h2)
        · exact .lower h3 h4 (ih _ h2)
        · exact .upper h3 h4 (ih _ h2)
      · cases h

/-- C86: the comparison of names without regard to case that other statements use is this one. -/
theorem c86_names (f k : Bytes) (hf : ∀ c ∈ f, c.toNat < 128) : foldKey k = foldKey f ↔ NameFor f k := (nameFor_iff hf k).symm

/-- Names of fields that are told apart by their folded forms. Proof device: models no code. -/
def Apart (names : List Bytes) : Prop := (∀ f ∈ names, ∀ c ∈ f, c.toNat < 128) ∧ ∀ f ∈ names, ∀ g ∈ names, foldKey f = foldKey g → f = g

instance (names : List Bytes) : Decidable (Apart names) := inferInstanceAs (Decidable (_ ∧ _))

theorem fieldMatch_iff {names : List Bytes} (ha : Apart names) {f : Bytes} (hf : f ∈ names) (k : Bytes) :
    fieldMatch names k = some f ↔ NameFor f k := by
  rw [nameFor_iff (ha.1 f hf)]
  unfold fieldMatch
  split
  · rename_i hk
    simp only [Option.some.injEq]
    constructor
    · rintro rfl; rfl
    · exact fun h => ha.2 _ hk _ hf h
  · rename_i hk
    constructor
    · intro h
      have := List.find?_some h
      simpa using (of_decide_eq_true this).symm
    · intro h
      cases hx : names.find? fun n => foldKey n = foldKey k with
      | none =>
        rw [List.find?_eq_none] at hx
        have := hx f hf
        simp [h] at this
      | some g =>
        have h1 := List.find?_some hx
        have h2 := List.mem_of_find?_eq_some hx
        have : foldKey g = foldKey f := by rw [← h]; exact of_decide_eq_true h1
        rw [ha.2 _ h2 _ hf this]

theorem given_iff {names : List Bytes} (ha : Apart names) {f : Bytes} (hf : f ∈ names) (ms : List (Bytes × Json)) (o : Option Json) :
    Given ms f o ↔ getField names f ms = o.toList := by
  have hno : ∀ l : List (Bytes × Json), getField names f l = [] ↔ ∀ m ∈ l, ¬ NameFor f m.1 := by
    intro l
    simp only [getField, List.filterMap_eq_nil_iff]
    constructor
    · intro h m hm hn
      have := h m hm
      rw [if_pos ((fieldMatch_iff ha hf _).2 hn)] at this
      cases this
    · intro h m hm
      rw [if_neg fun e => h m hm ((fieldMatch_iff ha hf _).1 e)]
  cases o with
  | none => exact (hno ms).symm
  | some v =>
    constructor
    · rintro ⟨a, k, b, rfl, hk, hn⟩
      have h1 := (hno a).2 fun m hm => hn m (by simp [hm])
      have h2 := (hno b).2 fun m hm => hn m (by simp [hm])
      rw [getField_append, h1, getField_cons_eq ((fieldMatch_iff ha hf k).2 hk), h2]
      rfl
    · intro h
      induction ms with
      | nil => cases h
      | cons m ms ih =>
        obtain ⟨k, j⟩ := m
        by_cases hm : fieldMatch names k = some f
        · rw [getField_cons_eq hm] at h
          injection h with h1 h2
          subst h1
          refine ⟨[], k, ms, rfl, (fieldMatch_iff ha hf k).1 hm, ?_⟩
          exact (hno ms).1 h2
        · rw [getField_cons_ne hm] at h
          obtain ⟨a, k', b, rfl, hk, hn⟩ := ih h
          refine ⟨(k, j) :: a, k', b, rfl, hk, ?_⟩
          intro m hm'
          simp only [List.cons_append, List.mem_cons] at hm'
          rcases hm' with rfl | hm'
          · exact fun e => hm ((fieldMatch_iff ha hf k).2 e)
          · exact hn m hm'


/-! ### fields -/

/-- At most one member for a field. Proof device: models no code. -/
def Single (names : List Bytes) (ms : List (Bytes × Json)) : Prop := ∀ f ∈ names, (getField names f ms).length ≤ 1

theorem single_of {names : List Bytes} (ha : Apart names) {ms : List (Bytes × Json)}
    (h : ms.Pairwise fun m m' => ∀ f : Bytes, (∀ c ∈ f, c.toNat < 128) → ¬ (NameFor f m.1 ∧ NameFor f m'.1)) : Single names ms := by
  intro f hf
  induction h with
  | nil => exact Nat.zero_le _
  | @cons m ms hm _ ih =>
    obtain ⟨k, j⟩ := m
    by_cases hk : fieldMatch names k = some f
    · rw [getField_cons_eq hk]
      have hn : NameFor f k := (fieldMatch_iff ha hf k).1 hk
      have : Given ms f none := fun m' hm' e => hm m' hm' f (ha.1 f hf) ⟨hn, e⟩
      rw [given_iff ha hf] at this
      rw [this]
      exact Nat.le_refl _
    · rw [getField_cons_ne hk]
      exact ih

/-- A value relation and a decoder agree. Proof device: models no code. -/
def Agrees {α : Type} (P : Json → Prop) (val : Option Json → α → Prop) (dec : α → Json → Option α) (init : α) : Prop :=
  (∀ x, val none x ↔ x = init) ∧ (∀ j x, val (some j) x → dec init j = some x) ∧ (∀ j x, P j → dec init j = some x → val (some j) x)

theorem field_complete {α : Type} {names : List Bytes} (ha : Apart names) {f : Bytes} (hf : f ∈ names) {ms : List (Bytes × Json)}
    {P : Json → Prop} {val : Option Json → α → Prop} {dec : α → Json → Option α} {init x : α} (hv : Agrees P val dec init) (h : Field ms f val x) :
    decAll dec init (getField names f ms) = some x := by
  obtain ⟨o, hg, hx⟩ := h
  rw [(given_iff ha hf ms o).1 hg]
  cases o with
  | none =>
    rw [(hv.1 x).1 hx]
    rfl
  | some j =>
    rw [Option.toList_some, decAll_one]
    exact hv.2.1 j x hx

theorem getField_mem {names : List Bytes} {f : Bytes} {ms : List (Bytes × Json)} {j : Json} (h : j ∈ getField names f ms) : ∃ m ∈ ms, m.2 = j := by
  simp only [getField, List.mem_filterMap] at h
  obtain ⟨m, hm, h⟩ := h
  split at h
  · cases h
    exact ⟨m, hm, rfl⟩
  · cases h

theorem field_sound {α : Type} {names : List Bytes} (ha : Apart names) {f : Bytes} (hf : f ∈ names) {ms : List (Bytes × Json)} (hs : Single names ms)
    {P : Json → Prop} {val : Option Json → α → Prop} {dec : α → Json → Option α} {init x : α} (hv : Agrees P val dec init)
    (hP : ∀ m ∈ ms, P m.2) (h : decAll dec init (getField names f ms) = some x) : Field ms f val x := by
  have h1 := hs f hf
  generalize hl : getField names f ms = l at h h1
  rcases l with _ | ⟨j, _ | ⟨j', l⟩⟩
  · exact ⟨none, (given_iff ha hf ms none).2 hl, (hv.1 x).2 (Option.some.inj h).symm⟩
  · rw [decAll_one] at h
    refine ⟨some j, (given_iff ha hf ms (some j)).2 hl, ?_⟩
    obtain ⟨m, hm, e⟩ := getField_mem (names := names) (f := f) (ms := ms) (j := j) (by rw [hl]; simp)
    exact hv.2.2 j x (e ▸ hP m hm) h
  · simp at h1

/-! ### values -/

theorem textVal_agrees (P : Json → Prop) : Agrees P TextVal decStr [] := by
  refine ⟨fun x => ⟨fun h => by cases h; rfl, fun h => h ▸ .absent⟩, fun j x h => ?_, fun j x _ h => ?_⟩
  · cases h <;> rfl
  · unfold decStr at h
    split at h
    · cases h; exact .null
    · cases h; exact .text _
    · cases h

theorem digits_test {ds : Bytes} : ¬ (ds = [] ∨ ds.any (fun c => !isDigit c) = true) ↔ Places DecDigit 10 ds (digitsVal ds) := by
  rw [decimal_iff]
  simp only [not_or, Bool.not_eq_true, List.any_eq_false, Bool.not_eq_true', and_true]
  exact and_congr Iff.rfl ⟨fun h c hc => (by simpa using h c hc), fun h c hc => (by simp [h c hc])⟩

theorem whole_core (ds : Bytes) (v n : Int) :
    (if ds = [] ∨ ds.any (fun c => !isDigit c) then none
      else if -9223372036854775808 ≤ v ∧ v ≤ 9223372036854775807 then some v else none) = some n ↔
    Places DecDigit 10 ds (digitsVal ds) ∧ v = n ∧ -2 ^ 63 ≤ n ∧ n < 2 ^ 63 := by
  rw [← digits_test]
  by_cases h : ds = [] ∨ ds.any (fun c => !isDigit c) = true
  · rw [if_pos h]
    constructor
    · intro e; cases e
    · rintro ⟨h', -⟩; exact absurd h h'
  · rw [if_neg h]
    simp only [h, not_false_iff, true_and]
    split
    · rename_i hr
      simp only [Option.some.injEq]
      constructor
      · rintro rfl
        exact ⟨rfl, by omega, by omega⟩
      · exact fun h => h.1
    · rename_i hr
      constructor
      · intro h; cases h
      · rintro ⟨rfl, h1, h2⟩
        exact absurd ⟨by omega, by omega⟩ hr

theorem whole_iff (t : Bytes) (n : Int) : parseInt64 t = some n ↔ Whole t n := by
  unfold Whole parseInt64
  split
  rename_i neg ds hds
  split at hds
  · cases hds
    simp only [if_true]
    rw [whole_core]
    constructor
    · rintro ⟨h, rfl, h1⟩
      exact ⟨.neg h, h1⟩
    · rintro ⟨h, h1⟩
      cases h with
      | pos h => exact absurd ((decimal_iff.1 h).2.1 45 (by simp)) (by decide)
      | neg h =>
        obtain ⟨hne, hd, rfl⟩ := decimal_iff.1 h
        exact ⟨h, rfl, h1⟩
  · rename_i hn
    cases hds
    simp only [Bool.false_eq_true, if_false]
    rw [whole_core]
    constructor
    · rintro ⟨h, rfl, h1⟩
      exact ⟨.pos h, h1⟩
    · rintro ⟨h, h1⟩
      cases h with
      | pos h =>
        obtain ⟨hne, hd, rfl⟩ := decimal_iff.1 h
        exact ⟨h, rfl, h1⟩
      | neg h => exact absurd rfl (hn _)

theorem intVal_agrees (P : Json → Prop) : Agrees P IntVal decInt 0 := by
  refine ⟨fun x => ⟨fun h => by cases h; rfl, fun h => h ▸ .absent⟩, fun j x h => ?_, fun j x _ h => ?_⟩
  · cases h with
    | null => rfl
    | num h => exact (whole_iff _ _).2 h
  · unfold decInt at h
    split at h
    · cases h; exact .null
    · exact .num ((whole_iff _ _).1 h)
    · cases h

theorem optIntVal_agrees (P : Json → Prop) : Agrees P OptIntVal decOptInt none := by
  refine ⟨fun x => ⟨fun h => by cases h; rfl, fun h => h ▸ .absent⟩, fun j x h => ?_, fun j x _ h => ?_⟩
  · cases h with
    | null => rfl
    | num h => simp only [decOptInt, (whole_iff _ _).2 h, Option.map_some]
  · unfold decOptInt at h
    split at h
    · cases h; exact .null
    · simp only [Option.map_eq_some_iff] at h
      obtain ⟨n, h, rfl⟩ := h
      exact .num ((whole_iff _ _).1 h)
    · cases h

theorem addrVal_agrees (P : Json → Prop) : Agrees P AddrVal decIP [] := by
  refine ⟨fun x => ⟨fun h => by cases h; rfl, fun h => h ▸ .absent⟩, fun j x h => ?_, fun j x _ h => ?_⟩
  · refine (c85_documents [] {} j x {}).1.2 ?_
    cases h with
    | null => exact .inl ⟨rfl, .inl rfl⟩
    | empty => exact .inl ⟨rfl, .inr rfl⟩
    | text h => exact .inr ⟨_, rfl, h⟩
  · rcases (c85_documents [] {} j x {}).1.1 h with ⟨rfl, rfl | rfl⟩ | ⟨t, rfl, ht⟩
    · exact .null
    · exact .empty
    · exact .text ht

theorem netVal_agrees (P : Json → Prop) : Agrees P NetVal decIPNet {} := by
  refine ⟨fun x => ⟨fun h => by cases h; rfl, fun h => h ▸ .absent⟩, fun j x h => ?_, fun j x _ h => ?_⟩
  · refine (c85_documents [] {} j [] x).2.2 ?_
    cases h with
    | text h => exact ⟨_, rfl, h⟩
  · obtain ⟨t, rfl, ht⟩ := (c85_documents [] {} j [] x).2.1 h
    exact .text ht

theorem strElems_iff (l : List Json) (xs : List Bytes) : decStrElems l = some xs ↔ Each TextElem l xs := by
  induction l generalizing xs with
  | nil =>
    constructor
    · intro h; cases h; exact .nil
    · intro h; cases h; rfl
  | cons j l ih =>
    constructor
    · intro h
      unfold decStrElems at h
      split at h
      · rename_i e; cases e
      · rename_i s l' e
        cases e
        simp only [Option.map_eq_some_iff] at h
        obtain ⟨ys, h, rfl⟩ := h
        exact .cons (.text s) ((ih _).1 h)
      · rename_i l' e
        cases e
        simp only [Option.map_eq_some_iff] at h
        obtain ⟨ys, h, rfl⟩ := h
        exact .cons .null ((ih _).1 h)
      · cases h
    · intro h
      cases h with
      | cons h t =>
        have ht := (ih _).2 t
        unfold TextElem at h
        cases h with
        | null => simp only [decStrElems, ht, Option.map_some]
        | text s => simp only [decStrElems, ht, Option.map_some]

theorem textsVal_agrees (P : Json → Prop) : Agrees P (ListVal TextElem) decStrList [] := by
  refine ⟨fun x => ⟨fun h => by cases h; rfl, fun h => h ▸ .absent⟩, fun j x h => ?_, fun j x _ h => ?_⟩
  · cases h with
    | null => rfl
    | list h => exact (strElems_iff _ _).2 h
  · unfold decStrList at h
    split at h
    · cases h; exact .null
    · exact .list ((strElems_iff _ _).1 h)
    · cases h

/-- An element relation and a decoder agree. Proof device: models no code. -/
def AgreesElem {α : Type} (P : Json → Prop) (R : Json → α → Prop) (dec : Json → Option α) : Prop :=
  (∀ j x, R j x → dec j = some x) ∧ (∀ j x, P j → dec j = some x → R j x)

theorem each_complete {α : Type} {P : Json → Prop} {R : Json → α → Prop} {dec : Json → Option α} (h : AgreesElem P R dec) {l : List Json} {xs : List α}
    (he : Each R l xs) : l.mapM dec = some xs := by
  induction he with
  | nil => rfl
  | cons hj _ ih =>
    rw [List.mapM_cons, h.1 _ _ hj, ih]
    rfl

theorem each_sound {α : Type} {P : Json → Prop} {R : Json → α → Prop} {dec : Json → Option α} (h : AgreesElem P R dec) {l : List Json} {xs : List α}
    (hP : ∀ j ∈ l, P j) (he : l.mapM dec = some xs) : Each R l xs := by
  induction l generalizing xs with
  | nil => cases he; exact .nil
  | cons j l ih =>
    rw [List.mapM_cons] at he
    cases hj : dec j with
    | none => rw [hj] at he; cases he
    | some x =>
    cases hl : l.mapM dec with
    | none => rw [hj, hl] at he; cases he
    | some ys =>
    rw [hj, hl] at he
    cases he
    exact .cons (h.2 j x (hP j (by simp)) hj) (ih (fun j hj => hP j (by simp [hj])) hl)

theorem noRepeats_elem {l : List Json} (h : NoRepeats (.arr l)) {j : Json} (hj : j ∈ l) : NoRepeats j := fun ms hw => h ms (.elem hj hw)
theorem noRepeats_member {ms : List (Bytes × Json)} (h : NoRepeats (.obj ms)) {m : Bytes × Json} (hm : m ∈ ms) : NoRepeats m.2 :=
  fun l hw => h l (.member hm hw)

theorem listVal_agrees {α : Type} {R : Json → α → Prop} {dec : Json → Option α} (h : AgreesElem NoRepeats R dec) :
    Agrees NoRepeats (ListVal R) (decList dec) [] := by
  refine ⟨fun x => ⟨fun h => by cases h; rfl, fun h => h ▸ .absent⟩, fun j x hx => ?_, fun j x hP hx => ?_⟩
  · cases hx with
    | null => rfl
    | list hx => exact each_complete h hx
  · unfold decList at hx
    split at hx
    · cases hx; exact .null
    · exact .list (each_sound h (fun _ hj => noRepeats_elem hP hj) hx)
    · cases hx

/-! ### records -/

/-- A record relation and a decoder agree. Proof device: models no code. -/
def AgreesRec {α : Type} (R : List (Bytes × Json) → α → Prop) (dec : Json → Option α) : Prop :=
  (∀ ms x, R ms x → dec (.obj ms) = some x) ∧ (∀ ms x, NoRepeats (.obj ms) → dec (.obj ms) = some x → R ms x) ∧
  dec .null = dec (.obj []) ∧ ∀ j x, dec j = some x → j = .null ∨ ∃ ms, j = .obj ms

theorem noRepeats_nil : NoRepeats (.obj []) := by
  intro ms h
  cases h with
  | self => exact .nil
  | member hm _ => cases hm

theorem record_agrees {α : Type} {R : List (Bytes × Json) → α → Prop} {dec : Json → Option α} (h : AgreesRec R dec) :
    AgreesElem NoRepeats (Record R) dec := by
  refine ⟨fun j x hx => ?_, fun j x hP hx => ?_⟩
  · cases hx with
    | null hx => rw [h.2.2.1]; exact h.1 _ _ hx
    | obj hx => exact h.1 _ _ hx
  · rcases h.2.2.2 j x hx with rfl | ⟨ms, rfl⟩
    · exact .null (h.2.1 _ _ noRepeats_nil (h.2.2.1 ▸ hx))
    · exact .obj (h.2.1 _ _ hP hx)

theorem optRecord_agrees {α : Type} {R : List (Bytes × Json) → α → Prop} {dec : Json → Option α} (h : AgreesRec R dec) :
    AgreesElem NoRepeats (OptRecord R) (decPtr dec) := by
  refine ⟨fun j x hx => ?_, fun j x hP hx => ?_⟩
  · cases hx with
    | null => rfl
    | obj hx => simp only [decPtr, h.1 _ _ hx, Option.map_some]
  · unfold decPtr at hx
    split at hx
    · cases hx; exact .null
    · rename_i hn
      simp only [Option.map_eq_some_iff] at hx
      obtain ⟨y, hx, rfl⟩ := hx
      rcases h.2.2.2 j y hx with rfl | ⟨ms, rfl⟩
      · exact absurd rfl hn
      · exact .obj (h.2.1 _ _ hP hx)

theorem optRecordVal_agrees {α : Type} {R : List (Bytes × Json) → α → Prop} {dec : Json → Option α} (h : AgreesRec R dec) :
    Agrees NoRepeats (OptRecordVal R) (fun _ => decPtr dec) none := by
  have he := optRecord_agrees h
  refine ⟨fun x => ⟨fun h => by cases h; rfl, fun h => h ▸ .absent⟩, fun j x hx => ?_, fun j x hP hx => ?_⟩
  · cases hx with
    | given hx => exact he.1 _ _ hx
  · exact .given (he.2 _ _ hP hx)

theorem recordVal_agrees {α : Type} {R : List (Bytes × Json) → α → Prop} {dec : α → Json → Option α} {init : α} (h : AgreesRec R (dec init))
    (h0 : dec init (.obj []) = some init) : Agrees NoRepeats (RecordVal R) dec init := by
  have he := record_agrees h
  refine ⟨fun x => ⟨fun hx => ?_, fun hx => ?_⟩, fun j x hx => ?_, fun j x hP hx => ?_⟩
  · cases hx with
    | absent hx =>
      have := h.1 _ _ hx
      rw [h0] at this
      exact (Option.some.inj this).symm
  · subst hx
    exact .absent (h.2.1 _ _ noRepeats_nil h0)
  · cases hx with
    | given hx => exact he.1 _ _ hx
  · exact .given (he.2 _ _ hP hx)


theorem dnsFields_apart : Apart dnsFields := by decide +kernel

theorem dns_agrees : AgreesRec IsDns (decDns {}) := by
  refine ⟨fun ms x h => ?_, fun ms x hP h => ?_, rfl, fun j x h => ?_⟩
  · have h0 := field_complete dnsFields_apart (by decide) (textsVal_agrees NoRepeats) h.nameservers
    have h1 := field_complete dnsFields_apart (by decide) (textVal_agrees NoRepeats) h.domain
    have h2 := field_complete dnsFields_apart (by decide) (textsVal_agrees NoRepeats) h.search
    have h3 := field_complete dnsFields_apart (by decide) (textsVal_agrees NoRepeats) h.options
    simp only [decDns, structMembers, Option.bind_eq_bind, Option.bind_some, h0, h1, h2, h3]
  · have hs := single_of dnsFields_apart (hP ms (.self _))
    have hm : ∀ m ∈ ms, NoRepeats m.2 := fun m hm => noRepeats_member hP hm
    simp only [decDns, structMembers, Option.bind_eq_bind, Option.bind_some, Option.bind_eq_some_iff, Option.some.injEq] at h
    obtain ⟨a0, h0, a1, h1, a2, h2, a3, h3, rfl⟩ := h
    exact ⟨field_sound dnsFields_apart (by decide) hs (textsVal_agrees NoRepeats) hm h0, field_sound dnsFields_apart (by decide) hs (textVal_agrees NoRepeats) hm h1, field_sound dnsFields_apart (by decide) hs (textsVal_agrees NoRepeats) hm h2, field_sound dnsFields_apart (by decide) hs (textsVal_agrees NoRepeats) hm h3⟩
  · cases j with
    | null => exact .inl rfl
    | obj ms => exact .inr ⟨ms, rfl⟩
    | _ => cases h

theorem routeFields_apart : Apart routeFields := by decide +kernel

theorem route_agrees : AgreesRec IsRoute (decRoute) := by
  refine ⟨fun ms x h => ?_, fun ms x hP h => ?_, rfl, fun j x h => ?_⟩
  · have h0 := field_complete routeFields_apart (by decide) (netVal_agrees NoRepeats) h.dst
    have h1 := field_complete routeFields_apart (by decide) (addrVal_agrees NoRepeats) h.gw
    have h2 := field_complete routeFields_apart (by decide) (intVal_agrees NoRepeats) h.mtu
    have h3 := field_complete routeFields_apart (by decide) (intVal_agrees NoRepeats) h.advmss
    have h4 := field_complete routeFields_apart (by decide) (intVal_agrees NoRepeats) h.priority
    have h5 := field_complete routeFields_apart (by decide) (optIntVal_agrees NoRepeats) h.table
    have h6 := field_complete routeFields_apart (by decide) (optIntVal_agrees NoRepeats) h.scope
    simp only [decRoute, structMembers, Option.bind_eq_bind, Option.bind_some, h0, h1, h2, h3, h4, h5, h6]
  · have hs := single_of routeFields_apart (hP ms (.self _))
    have hm : ∀ m ∈ ms, NoRepeats m.2 := fun m hm => noRepeats_member hP hm
    simp only [decRoute, structMembers, Option.bind_eq_bind, Option.bind_some, Option.bind_eq_some_iff, Option.some.injEq] at h
    obtain ⟨a0, h0, a1, h1, a2, h2, a3, h3, a4, h4, a5, h5, a6, h6, rfl⟩ := h
    exact ⟨field_sound routeFields_apart (by decide) hs (netVal_agrees NoRepeats) hm h0, field_sound routeFields_apart (by decide) hs (addrVal_agrees NoRepeats) hm h1, field_sound routeFields_apart (by decide) hs (intVal_agrees NoRepeats) hm h2, field_sound routeFields_apart (by decide) hs (intVal_agrees NoRepeats) hm h3, field_sound routeFields_apart (by decide) hs (intVal_agrees NoRepeats) hm h4, field_sound routeFields_apart (by decide) hs (optIntVal_agrees NoRepeats) hm h5, field_sound routeFields_apart (by decide) hs (optIntVal_agrees NoRepeats) hm h6⟩
  · cases j with
    | null => exact .inl rfl
    | obj ms => exact .inr ⟨ms, rfl⟩
    | _ => cases h

theorem ip020Fields_apart : Apart ip020Fields := by decide +kernel

theorem ip020_agrees : AgreesRec IsIp020 (decIp020) := by
  refine ⟨fun ms x h => ?_, fun ms x hP h => ?_, rfl, fun j x h => ?_⟩
  · have h0 := field_complete ip020Fields_apart (by decide) (netVal_agrees NoRepeats) h.ip
    have h1 := field_complete ip020Fields_apart (by decide) (addrVal_agrees NoRepeats) h.gateway
    have h2 := field_complete ip020Fields_apart (by decide) (listVal_agrees (record_agrees route_agrees)) h.routes
    simp only [decIp020, structMembers, Option.bind_eq_bind, Option.bind_some, h0, h1, h2]
  · have hs := single_of ip020Fields_apart (hP ms (.self _))
    have hm : ∀ m ∈ ms, NoRepeats m.2 := fun m hm => noRepeats_member hP hm
    simp only [decIp020, structMembers, Option.bind_eq_bind, Option.bind_some, Option.bind_eq_some_iff, Option.some.injEq] at h
    obtain ⟨a0, h0, a1, h1, a2, h2, rfl⟩ := h
    exact ⟨field_sound ip020Fields_apart (by decide) hs (netVal_agrees NoRepeats) hm h0, field_sound ip020Fields_apart (by decide) hs (addrVal_agrees NoRepeats) hm h1, field_sound ip020Fields_apart (by decide) hs (listVal_agrees (record_agrees route_agrees)) hm h2⟩
  · cases j with
    | null => exact .inl rfl
    | obj ms => exact .inr ⟨ms, rfl⟩
    | _ => cases h

theorem r020Fields_apart : Apart r020Fields := by decide +kernel

theorem r020_agrees : AgreesRec IsResult020 (decR020) := by
  refine ⟨fun ms x h => ?_, fun ms x hP h => ?_, rfl, fun j x h => ?_⟩
  · have h0 := field_complete r020Fields_apart (by decide) (textVal_agrees NoRepeats) h.cniVersion
    have h1 := field_complete r020Fields_apart (by decide) (optRecordVal_agrees ip020_agrees) h.ip4
    have h2 := field_complete r020Fields_apart (by decide) (optRecordVal_agrees ip020_agrees) h.ip6
    have h3 := field_complete r020Fields_apart (by decide) (recordVal_agrees dns_agrees rfl) h.dns
    simp only [decR020, structMembers, Option.bind_eq_bind, Option.bind_some, h0, h1, h2, h3]
  · have hs := single_of r020Fields_apart (hP ms (.self _))
    have hm : ∀ m ∈ ms, NoRepeats m.2 := fun m hm => noRepeats_member hP hm
    simp only [decR020, structMembers, Option.bind_eq_bind, Option.bind_some, Option.bind_eq_some_iff, Option.some.injEq] at h
    obtain ⟨a0, h0, a1, h1, a2, h2, a3, h3, rfl⟩ := h
    exact ⟨field_sound r020Fields_apart (by decide) hs (textVal_agrees NoRepeats) hm h0, field_sound r020Fields_apart (by decide) hs (optRecordVal_agrees ip020_agrees) hm h1, field_sound r020Fields_apart (by decide) hs (optRecordVal_agrees ip020_agrees) hm h2, field_sound r020Fields_apart (by decide) hs (recordVal_agrees dns_agrees rfl) hm h3⟩
  · cases j with
    | null => exact .inl rfl
    | obj ms => exact .inr ⟨ms, rfl⟩
    | _ => cases h

theorem intf040Fields_apart : Apart intf040Fields := by decide +kernel

theorem intf040_agrees : AgreesRec IsIntf040 (decIntf040) := by
  refine ⟨fun ms x h => ?_, fun ms x hP h => ?_, rfl, fun j x h => ?_⟩
  · have h0 := field_complete intf040Fields_apart (by decide) (textVal_agrees NoRepeats) h.name
    have h1 := field_complete intf040Fields_apart (by decide) (textVal_agrees NoRepeats) h.mac
    have h2 := field_complete intf040Fields_apart (by decide) (textVal_agrees NoRepeats) h.sandbox
    simp only [decIntf040, structMembers, Option.bind_eq_bind, Option.bind_some, h0, h1, h2]
  · have hs := single_of intf040Fields_apart (hP ms (.self _))
    have hm : ∀ m ∈ ms, NoRepeats m.2 := fun m hm => noRepeats_member hP hm
    simp only [decIntf040, structMembers, Option.bind_eq_bind, Option.bind_some, Option.bind_eq_some_iff, Option.some.injEq] at h
    obtain ⟨a0, h0, a1, h1, a2, h2, rfl⟩ := h
    exact ⟨field_sound intf040Fields_apart (by decide) hs (textVal_agrees NoRepeats) hm h0, field_sound intf040Fields_apart (by decide) hs (textVal_agrees NoRepeats) hm h1, field_sound intf040Fields_apart (by decide) hs (textVal_agrees NoRepeats) hm h2⟩
  · cases j with
    | null => exact .inl rfl
    | obj ms => exact .inr ⟨ms, rfl⟩
    | _ => cases h

theorem ip040Fields_apart : Apart ip040Fields := by decide +kernel

theorem ip040_agrees : AgreesRec IsIp040 (decIp040) := by
  refine ⟨fun ms x h => ?_, fun ms x hP h => ?_, rfl, fun j x h => ?_⟩
  · have h0 := field_complete ip040Fields_apart (by decide) (textVal_agrees NoRepeats) h.version
    have h1 := field_complete ip040Fields_apart (by decide) (optIntVal_agrees NoRepeats) h.interface
    have h2 := field_complete ip040Fields_apart (by decide) (netVal_agrees NoRepeats) h.address
    have h3 := field_complete ip040Fields_apart (by decide) (addrVal_agrees NoRepeats) h.gateway
    simp only [decIp040, structMembers, Option.bind_eq_bind, Option.bind_some, h0, h1, h2, h3]
  · have hs := single_of ip040Fields_apart (hP ms (.self _))
    have hm : ∀ m ∈ ms, NoRepeats m.2 := fun m hm => noRepeats_member hP hm
    simp only [decIp040, structMembers, Option.bind_eq_bind, Option.bind_some, Option.bind_eq_some_iff, Option.some.injEq] at h
    obtain ⟨a0, h0, a1, h1, a2, h2, a3, h3, rfl⟩ := h
    exact ⟨field_sound ip040Fields_apart (by decide) hs (textVal_agrees NoRepeats) hm h0, field_sound ip040Fields_apart (by decide) hs (optIntVal_agrees NoRepeats) hm h1, field_sound ip040Fields_apart (by decide) hs (netVal_agrees NoRepeats) hm h2, field_sound ip040Fields_apart (by decide) hs (addrVal_agrees NoRepeats) hm h3⟩
  · cases j with
    | null => exact .inl rfl
    | obj ms => exact .inr ⟨ms, rfl⟩
    | _ => cases h

theorem resFields_apart : Apart resFields := by decide +kernel

theorem r040_agrees : AgreesRec IsResult040 (decR040) := by
  refine ⟨fun ms x h => ?_, fun ms x hP h => ?_, rfl, fun j x h => ?_⟩
  · have h0 := field_complete resFields_apart (by decide) (textVal_agrees NoRepeats) h.cniVersion
    have h1 := field_complete resFields_apart (by decide) (listVal_agrees (optRecord_agrees intf040_agrees)) h.interfaces
    have h2 := field_complete resFields_apart (by decide) (listVal_agrees (optRecord_agrees ip040_agrees)) h.ips
    have h3 := field_complete resFields_apart (by decide) (listVal_agrees (optRecord_agrees route_agrees)) h.routes
    have h4 := field_complete resFields_apart (by decide) (recordVal_agrees dns_agrees rfl) h.dns
    simp only [decR040, structMembers, Option.bind_eq_bind, Option.bind_some, h0, h1, h2, h3, h4]
  · have hs := single_of resFields_apart (hP ms (.self _))
    have hm : ∀ m ∈ ms, NoRepeats m.2 := fun m hm => noRepeats_member hP hm
    simp only [decR040, structMembers, Option.bind_eq_bind, Option.bind_some, Option.bind_eq_some_iff, Option.some.injEq] at h
    obtain ⟨a0, h0, a1, h1, a2, h2, a3, h3, a4, h4, rfl⟩ := h
    exact ⟨field_sound resFields_apart (by decide) hs (textVal_agrees NoRepeats) hm h0, field_sound resFields_apart (by decide) hs (listVal_agrees (optRecord_agrees intf040_agrees)) hm h1, field_sound resFields_apart (by decide) hs (listVal_agrees (optRecord_agrees ip040_agrees)) hm h2, field_sound resFields_apart (by decide) hs (listVal_agrees (optRecord_agrees route_agrees)) hm h3, field_sound resFields_apart (by decide) hs (recordVal_agrees dns_agrees rfl) hm h4⟩
  · cases j with
    | null => exact .inl rfl
    | obj ms => exact .inr ⟨ms, rfl⟩
    | _ => cases h

theorem intf100Fields_apart : Apart intf100Fields := by decide +kernel

theorem intf100_agrees : AgreesRec IsIntf100 (decIntf100) := by
  refine ⟨fun ms x h => ?_, fun ms x hP h => ?_, rfl, fun j x h => ?_⟩
  · have h0 := field_complete intf100Fields_apart (by decide) (textVal_agrees NoRepeats) h.name
    have h1 := field_complete intf100Fields_apart (by decide) (textVal_agrees NoRepeats) h.mac
    have h2 := field_complete intf100Fields_apart (by decide) (intVal_agrees NoRepeats) h.mtu
    have h3 := field_complete intf100Fields_apart (by decide) (textVal_agrees NoRepeats) h.sandbox
    have h4 := field_complete intf100Fields_apart (by decide) (textVal_agrees NoRepeats) h.socketPath
    have h5 := field_complete intf100Fields_apart (by decide) (textVal_agrees NoRepeats) h.pciID
    simp only [decIntf100, structMembers, Option.bind_eq_bind, Option.bind_some, h0, h1, h2, h3, h4, h5]
  · have hs := single_of intf100Fields_apart (hP ms (.self _))
    have hm : ∀ m ∈ ms, NoRepeats m.2 := fun m hm => noRepeats_member hP hm
    simp only [decIntf100, structMembers, Option.bind_eq_bind, Option.bind_some, Option.bind_eq_some_iff, Option.some.injEq] at h
    obtain ⟨a0, h0, a1, h1, a2, h2, a3, h3, a4, h4, a5, h5, rfl⟩ := h
    exact ⟨field_sound intf100Fields_apart (by decide) hs (textVal_agrees NoRepeats) hm h0, field_sound intf100Fields_apart (by decide) hs (textVal_agrees NoRepeats) hm h1, field_sound intf100Fields_apart (by decide) hs (intVal_agrees NoRepeats) hm h2, field_sound intf100Fields_apart (by decide) hs (textVal_agrees NoRepeats) hm h3, field_sound intf100Fields_apart (by decide) hs (textVal_agrees NoRepeats) hm h4, field_sound intf100Fields_apart (by decide) hs (textVal_agrees NoRepeats) hm h5⟩
  · cases j with
    | null => exact .inl rfl
    | obj ms => exact .inr ⟨ms, rfl⟩
    | _ => cases h

theorem ip100Fields_apart : Apart ip100Fields := by decide +kernel

theorem ip100_agrees : AgreesRec IsIp100 (decIp100) := by
  refine ⟨fun ms x h => ?_, fun ms x hP h => ?_, rfl, fun j x h => ?_⟩
  · have h0 := field_complete ip100Fields_apart (by decide) (optIntVal_agrees NoRepeats) h.interface
    have h1 := field_complete ip100Fields_apart (by decide) (netVal_agrees NoRepeats) h.address
    have h2 := field_complete ip100Fields_apart (by decide) (addrVal_agrees NoRepeats) h.gateway
    simp only [decIp100, structMembers, Option.bind_eq_bind, Option.bind_some, h0, h1, h2]
  · have hs := single_of ip100Fields_apart (hP ms (.self _))
    have hm : ∀ m ∈ ms, NoRepeats m.2 := fun m hm => noRepeats_member hP hm
    simp only [decIp100, structMembers, Option.bind_eq_bind, Option.bind_some, Option.bind_eq_some_iff, Option.some.injEq] at h
    obtain ⟨a0, h0, a1, h1, a2, h2, rfl⟩ := h
    exact ⟨field_sound ip100Fields_apart (by decide) hs (optIntVal_agrees NoRepeats) hm h0, field_sound ip100Fields_apart (by decide) hs (netVal_agrees NoRepeats) hm h1, field_sound ip100Fields_apart (by decide) hs (addrVal_agrees NoRepeats) hm h2⟩
  · cases j with
    | null => exact .inl rfl
    | obj ms => exact .inr ⟨ms, rfl⟩
    | _ => cases h

theorem r100_agrees : AgreesRec IsResult100 (decR100) := by
  refine ⟨fun ms x h => ?_, fun ms x hP h => ?_, rfl, fun j x h => ?_⟩
  · have h0 := field_complete resFields_apart (by decide) (textVal_agrees NoRepeats) h.cniVersion
    have h1 := field_complete resFields_apart (by decide) (listVal_agrees (optRecord_agrees intf100_agrees)) h.interfaces
    have h2 := field_complete resFields_apart (by decide) (listVal_agrees (optRecord_agrees ip100_agrees)) h.ips
    have h3 := field_complete resFields_apart (by decide) (listVal_agrees (optRecord_agrees route_agrees)) h.routes
    have h4 := field_complete resFields_apart (by decide) (recordVal_agrees dns_agrees rfl) h.dns
    simp only [decR100, structMembers, Option.bind_eq_bind, Option.bind_some, h0, h1, h2, h3, h4]
  · have hs := single_of resFields_apart (hP ms (.self _))
    have hm : ∀ m ∈ ms, NoRepeats m.2 := fun m hm => noRepeats_member hP hm
    simp only [decR100, structMembers, Option.bind_eq_bind, Option.bind_some, Option.bind_eq_some_iff, Option.some.injEq] at h
    obtain ⟨a0, h0, a1, h1, a2, h2, a3, h3, a4, h4, rfl⟩ := h
    exact ⟨field_sound resFields_apart (by decide) hs (textVal_agrees NoRepeats) hm h0, field_sound resFields_apart (by decide) hs (listVal_agrees (optRecord_agrees intf100_agrees)) hm h1, field_sound resFields_apart (by decide) hs (listVal_agrees (optRecord_agrees ip100_agrees)) hm h2, field_sound resFields_apart (by decide) hs (listVal_agrees (optRecord_agrees route_agrees)) hm h3, field_sound resFields_apart (by decide) hs (recordVal_agrees dns_agrees rfl) hm h4⟩
  · cases j with
    | null => exact .inl rfl
    | obj ms => exact .inr ⟨ms, rfl⟩
    | _ => cases h


/-! ### results -/

theorem saysResult_complete {version : Bytes} {j : Json} {r : Result} (h : SaysResult version j r) : createJson version j = .ok r := by
  cases r with
  | v020 r =>
    obtain ⟨hv, v, hm, hr, e⟩ := h
    have hd := (record_agrees r020_agrees).1 _ _ hr
    have hv' : version ∈ supported020 := hv
    have hm' : v ∈ supported020 := hm
    simp only [createJson, if_pos hv', hd, if_pos hm']
    obtain ⟨c, i4, i6, d⟩ := r
    simp only at e ⊢
    subst e
    split <;> rfl
  | v040 r =>
    obtain ⟨hv, hm, hr⟩ := h
    have hd := (record_agrees r040_agrees).1 _ _ hr
    have hv' : version ∈ supported040 := hv
    have hm' : r.cniVersion ∈ supported040 := hm
    have hn : ∀ v ∈ supported040, v ∉ supported020 := by decide
    simp only [createJson, if_neg (hn _ hv'), if_pos hv', hd, if_pos hm']
  | v100 r =>
    obtain ⟨hv, hm, hr⟩ := h
    have hd := (record_agrees r100_agrees).1 _ _ hr
    have hv' : version ∈ supported100 := hv
    have hm' : r.cniVersion ∈ supported100 := hm
    have hn : ∀ v ∈ supported100, v ∉ supported020 := by decide
    have hn' : ∀ v ∈ supported100, v ∉ supported040 := by decide
    simp only [createJson, if_neg (hn _ hv'), if_neg (hn' _ hv'), if_pos hv', hd, if_pos hm']

theorem saysResult_sound {version : Bytes} {j : Json} {r : Result} (hP : NoRepeats j) (h : createJson version j = .ok r) : SaysResult version j r := by
  unfold createJson at h
  split at h
  · rename_i hv
    cases hd : decR020 j with
    | none => rw [hd] at h; cases h
    | some x =>
    rw [hd] at h
    simp only at h
    split at h
    · rename_i hm
      have hr := (record_agrees r020_agrees).2 _ _ hP hd
      split at h
      · rename_i h0
        cases h
        refine ⟨hv, x.cniVersion, hm, ?_, ?_⟩
        · exact hr
        · simp [h0]
      · rename_i h0
        cases h
        refine ⟨hv, x.cniVersion, hm, ?_, ?_⟩
        · exact hr
        · simp [h0]
    · cases h
  split at h
  · rename_i hv
    cases hd : decR040 j with
    | none => rw [hd] at h; cases h
    | some x =>
    rw [hd] at h
    simp only at h
    split at h
    · rename_i hm
      cases h
      exact ⟨hv, hm, (record_agrees r040_agrees).2 _ _ hP hd⟩
    · cases h
  split at h
  · rename_i hv
    cases hd : decR100 j with
    | none => rw [hd] at h; cases h
    | some x =>
    rw [hd] at h
    simp only at h
    split at h
    · rename_i hm
      cases h
      exact ⟨hv, hm, (record_agrees r100_agrees).2 _ _ hP hd⟩
    · cases h
  · cases h

/-- C86: a document that is a result of the form of a version is read as that result. -/
theorem c86_read (version b : Bytes) (j : Json) (r : Result) (hb : JsonText b j) (h : SaysResult version j r) : create version b = .ok r := by
  rw [create, (c84_syntax b j).2 hb]
  exact saysResult_complete h

/-- C86: what is read as a result of a version is a JSON document and, if no object in it has two members for one field, a result of the form of
that version, and this result. -/
theorem c86_only (version b : Bytes) (r : Result) (h : create version b = .ok r) :
    ∃ j, JsonText b j ∧ (NoRepeats j → SaysResult version j r) := by
  unfold create at h
  cases hb : Json.parse b with
  | none => rw [hb] at h; cases h
  | some j =>
  rw [hb] at h
  exact ⟨j, (c84_syntax b j).1 hb, fun hP => saysResult_sound hP h⟩

/-- C86: a document is a result of a version in at most one way. -/
theorem c86_unambiguous (version : Bytes) (j : Json) (r r' : Result) (h : SaysResult version j r) (h' : SaysResult version j r') : r = r' := by
  have e := saysResult_complete h
  rw [saysResult_complete h'] at e
  cases e
  rfl

/-- C86: everything else is refused with an error: what is no JSON document, and documents that are no result of the form of the version. -/
theorem c86_refused (version b : Bytes)
    (h : (∀ j, ¬ JsonText b j) ∨ ∃ j, JsonText b j ∧ NoRepeats j ∧ ∀ r, ¬ SaysResult version j r) : ∃ e, create version b = .err e := by
  cases hc : create version b with
  | ok r =>
    obtain ⟨j, hj, hr⟩ := c86_only version b r hc
    rcases h with h | ⟨j', hj', hP, hn⟩
    · exact absurd hj (h j)
    · cases c84_unambiguous b j j' hj hj'
      exact absurd (hr hP) (hn r)
  | err e => exact ⟨e, rfl⟩
  | panic =>
    exfalso
    unfold create at hc
    split at hc
    · cases hc
    unfold createJson at hc
    repeat' split at hc
    all_goals cases hc

theorem version_agrees : AgreesRec (fun ms s => Field ms b!"cniVersion" TextVal s) fun j =>
    (structMembers j).bind fun ms => decAll decStr [] (getField [b!"cniVersion"] b!"cniVersion" ms) := by
  have ha : Apart [b!"cniVersion"] := by decide +kernel
  refine ⟨fun ms x h => ?_, fun ms x hP h => ?_, rfl, fun j x h => ?_⟩
  · exact field_complete ha (by decide) (textVal_agrees NoRepeats) h
  · exact field_sound ha (by decide) (single_of ha (hP ms (.self _))) (textVal_agrees NoRepeats) (fun m hm => noRepeats_member hP hm) h
  · cases j with
    | null => exact .inl rfl
    | obj ms => exact .inr ⟨ms, rfl⟩
    | _ => cases h

theorem decodeVersion_doc {b : Bytes} {j : Json} (hp : Json.parse b = some j) (w : Bytes) : decodeVersion b = .ok w ↔
    ∃ v, ((structMembers j).bind fun ms => decAll decStr [] (getField [b!"cniVersion"] b!"cniVersion" ms)) = some v ∧
      w = if v = [] then b!"0.1.0" else v := by
  simp only [decodeVersion, hp]
  cases structMembers j with
  | none => simp
  | some ms =>
    simp only [Option.bind_some]
    cases decAll decStr [] (getField [b!"cniVersion"] b!"cniVersion" ms) with
    | none => simp
    | some v =>
      simp only [Out.ok.injEq, Option.some.injEq, exists_eq_left']
      exact eq_comm

/-- C86: CreateFromBytes reads a document as a result exactly if it is a result of the form of the version it names itself; none is 0.1.0. -/
theorem c86_from_bytes (b : Bytes) (j : Json) (r : Result) (hb : JsonText b j) (hP : NoRepeats j) :
    createFromBytes b = .ok r ↔
      ∃ v, Record (fun ms s => Field ms b!"cniVersion" TextVal s) j v ∧ SaysResult (if v = [] then b!"0.1.0" else v) j r := by
  have hp := (c84_syntax b j).2 hb
  have hc : ∀ v, create v b = .ok r ↔ SaysResult v j r := by
    intro v
    constructor
    · intro h
      obtain ⟨j', hj', hs⟩ := c86_only v b r h
      rw [c84_unambiguous b j' j hj' hb] at hs
      exact hs hP
    · exact fun h => c86_read v b j r hb h
  have hr := record_agrees version_agrees
  constructor
  · intro h
    unfold createFromBytes at h
    cases hd : decodeVersion b with
    | err e => rw [hd] at h; cases h
    | panic => rw [hd] at h; cases h
    | ok w =>
    rw [hd] at h
    have h := (hc w).1 h
    obtain ⟨v, hs, rfl⟩ := (decodeVersion_doc hp w).1 hd
    exact ⟨v, hr.2 _ _ hP hs, h⟩
  · rintro ⟨v, hv, h⟩
    have hs := hr.1 _ _ hv
    have hd : decodeVersion b = .ok (if v = [] then b!"0.1.0" else v) := (decodeVersion_doc hp _).2 ⟨v, hs, rfl⟩
    simp only [createFromBytes, hd]
    exact (hc _).2 h


/-! ### configurations -/

theorem mapM_dec {α : Type} {dec : Json → Option α} {l : List (Bytes × Json)} {ys : List (Bytes × α)}
    (h : (l.mapM fun m => (dec m.2).map fun b => (m.1, b)) = some ys) : ∀ m ∈ l, dec m.2 ≠ none := by
  induction l generalizing ys with
  | nil => intro m hm; cases hm
  | cons a l ih =>
    intro m hm e
    rw [List.mapM_cons] at h
    cases ha : dec a.2 with
    | none => rw [ha] at h; cases h
    | some z =>
    cases hl : l.mapM fun m => (dec m.2).map fun b => (m.1, b) with
    | none => rw [ha, hl] at h; cases h
    | some zs =>
    rcases List.mem_cons.1 hm with rfl | hm
    · rw [ha] at e; cases e
    · exact ih hl m hm e

theorem mapM_some {α : Type} {dec : Json → Option α} {l : List (Bytes × Json)} (h : ∀ m ∈ l, ∃ b, dec m.2 = some b) :
    ∃ ys, (l.mapM fun m => (dec m.2).map fun b => (m.1, b)) = some ys := by
  induction l with
  | nil => exact ⟨[], rfl⟩
  | cons a l ih =>
    obtain ⟨b, hb⟩ := h a (by simp)
    obtain ⟨ys, hy⟩ := ih fun m hm => h m (by simp [hm])
    exact ⟨_, by rw [List.mapM_cons, hb, hy]; rfl⟩

/-- A map read from members by a decoder of values is the one the last members of each name give. -/
theorem map_complete {α : Type} {dec : Json → Option α} {l : List (Bytes × Json)} {bs : List (Bytes × α)}
    (h : (l.mapM fun m => (dec m.2).map fun b => (m.1, b)) = some bs) (k : Bytes) (b : α) :
    GoMap.get? (GoMap.insertAll [] bs) k = some b ↔ ∃ j, LastMember l k j ∧ dec j = some b := by
  have key : ∀ (l : List (Bytes × Json)) (bs : List (Bytes × α)), (l.mapM fun m => (dec m.2).map fun b => (m.1, b)) = some bs →
      GoMap.get? bs.reverse k = (GoMap.get? l.reverse k).bind dec := by
    intro l
    induction l with
    | nil => intro bs h; cases h; rfl
    | cons m l ih =>
      intro bs h
      rw [List.mapM_cons] at h
      cases hm : dec m.2 with
      | none => rw [hm] at h; cases h
      | some x =>
      cases hl : l.mapM fun m => (dec m.2).map fun b => (m.1, b) with
      | none => rw [hm, hl] at h; cases h
      | some ys =>
      rw [hm, hl] at h
      cases h
      rw [List.reverse_cons, List.reverse_cons, GoMap.get?_append, GoMap.get?_append, ih ys hl]
      obtain ⟨k', j⟩ := m
      cases hk : GoMap.get? l.reverse k with
      | some j' =>
        simp only [Option.bind_some, Option.some_or]
        have hmem : (k, j') ∈ l := by simpa using GoMap.get?_some_mem hk
        cases hd : dec j' with
        | some y => rfl
        | none =>
          exfalso
          exact mapM_dec hl _ hmem hd
      | none =>
        simp only [Option.bind_none, Option.none_or]
        by_cases hkk : k' = k
        · subst hkk
          simp only [GoMap.get?, if_true, Option.bind_some]
          exact hm.symm
        · have h1 : GoMap.get? [(k', x)] k = none := by simp [GoMap.get?, hkk]
          have h2 : GoMap.get? [(k', j)] k = none := by simp [GoMap.get?, hkk]
          rw [h1, h2]
          rfl
  rw [GoMap.get?_insertAll, key l bs h]
  simp only [GoMap.get?, Option.or_none]
  simp only [lastMember_iff, Option.bind_eq_some_iff]

theorem truthElem_iff (j : Json) (b : Bool) : decBool false j = some b ↔ TruthElem j b := by
  constructor
  · intro h
    unfold decBool at h
    split at h
    · cases h; exact .null
    · cases h; exact .bool _
    · cases h
  · intro h; cases h <;> rfl

theorem truthsVal_agrees (P : Json → Prop) : Agrees P TruthsVal decBoolMap [] := by
  refine ⟨fun x => ⟨fun h => by cases h; rfl, fun h => h ▸ .absent⟩, fun j x h => ?_, fun j x _ h => ?_⟩
  · cases h with
    | null => rfl
    | @map l m hl hs h =>
      obtain ⟨ys, hy⟩ := mapM_some (dec := decBool false) (l := l) fun m hm => (by simpa only [truthElem_iff] using hl m hm)
      simp only [decBoolMap, hy, Option.map_some, Option.some.injEq]
      refine GoMap.ext (GoMap.sorted_insertAll (m := []) trivial _) hs fun k => Option.ext fun b => ?_
      rw [map_complete hy, h]
      simp only [truthElem_iff]
  · unfold decBoolMap at h
    split at h
    · cases h; exact .null
    · rename_i l
      simp only [Option.map_eq_some_iff] at h
      obtain ⟨ys, hy, rfl⟩ := h
      refine .map (fun p hp => ?_) (GoMap.sorted_insertAll (m := []) trivial _) fun k b => ?_
      · obtain ⟨b, hb⟩ := Option.ne_none_iff_exists'.1 (mapM_dec hy p hp)
        exact ⟨b, (truthElem_iff _ _).1 hb⟩
      · rw [map_complete hy]
        simp only [truthElem_iff]
    · cases h

theorem toAnyMembers_mapM (l : List (Bytes × Json)) : Json.toAnyMembers l = l.mapM fun m => (Json.toAny m.2).map fun b => (m.1, b) := by
  induction l with
  | nil => rfl
  | cons a l ih =>
    obtain ⟨k, j⟩ := a
    rw [List.mapM_cons, ← ih, Json.toAnyMembers]
    cases j.toAny with
    | none => rfl
    | some v => cases Json.toAnyMembers l <;> rfl

theorem anyVal_agrees (P : Json → Prop) : Agrees P AnyVal decAnyMap none := by
  refine ⟨fun x => ⟨fun h => by cases h; rfl, fun h => h ▸ .absent⟩, fun j x h => ?_, fun j x _ h => ?_⟩
  · cases h with
    | null => rfl
    | @map l m hl hs h =>
      obtain ⟨ys, hy⟩ := mapM_some (dec := Json.toAny) (l := l) hl
      simp only [decAnyMap, toAnyMembers_mapM, hy, Option.map_some, Option.some.injEq, Option.getD_none]
      refine GoMap.ext (GoMap.sorted_insertAll (m := []) trivial _) hs fun k => Option.ext fun b => ?_
      rw [map_complete hy, h]
  · unfold decAnyMap at h
    split at h
    · cases h; exact .null
    · rename_i l
      simp only [toAnyMembers_mapM, Option.map_eq_some_iff, Option.getD_none] at h
      obtain ⟨ys, hy, rfl⟩ := h
      refine .map (fun p hp => ?_) (GoMap.sorted_insertAll (m := []) trivial _) fun k b => ?_
      · exact Option.ne_none_iff_exists'.1 (mapM_dec hy p hp)
      · rw [map_complete hy]
    · cases h

theorem ipam_agrees : AgreesRec IsIpam (decIpam []) := by
  have ha : Apart [b!"type"] := by decide +kernel
  refine ⟨fun ms x h => ?_, fun ms x hP h => ?_, rfl, fun j x h => ?_⟩
  · exact field_complete ha (by decide) (textVal_agrees NoRepeats) h
  · exact field_sound ha (by decide) (single_of ha (hP ms (.self _))) (textVal_agrees NoRepeats) (fun m hm => noRepeats_member hP hm) h
  · cases j with
    | null => exact .inl rfl
    | obj ms => exact .inr ⟨ms, rfl⟩
    | _ => cases h

theorem attachment_agrees : AgreesRec IsAttachment decAttachment := by
  have ha : Apart [b!"containerID", b!"ifname"] := by decide +kernel
  refine ⟨fun ms x h => ?_, fun ms x hP h => ?_, rfl, fun j x h => ?_⟩
  · have h0 := field_complete ha (by decide) (textVal_agrees NoRepeats) h.containerID
    have h1 := field_complete ha (by decide) (textVal_agrees NoRepeats) h.ifName
    simp only [decAttachment, structMembers, Option.bind_eq_bind, Option.bind_some, h0, h1]
  · have hs := single_of ha (hP ms (.self _))
    have hm : ∀ m ∈ ms, NoRepeats m.2 := fun m hm => noRepeats_member hP hm
    simp only [decAttachment, structMembers, Option.bind_eq_bind, Option.bind_some, Option.bind_eq_some_iff, Option.some.injEq] at h
    obtain ⟨a0, h0, a1, h1, rfl⟩ := h
    exact ⟨field_sound ha (by decide) hs (textVal_agrees NoRepeats) hm h0, field_sound ha (by decide) hs (textVal_agrees NoRepeats) hm h1⟩
  · cases j with
    | null => exact .inl rfl
    | obj ms => exact .inr ⟨ms, rfl⟩
    | _ => cases h

theorem pluginConfFields_apart : Apart pluginConfFields := by decide +kernel

theorem conf_agrees : AgreesRec IsConf decPluginConf := by
  have ha := pluginConfFields_apart
  refine ⟨fun ms x h => ?_, fun ms x hP h => ?_, rfl, fun j x h => ?_⟩
  · have h0 := field_complete ha (by decide) (textVal_agrees NoRepeats) h.cniVersion
    have h1 := field_complete ha (by decide) (textVal_agrees NoRepeats) h.name
    have h2 := field_complete ha (by decide) (textVal_agrees NoRepeats) h.type
    have h3 := field_complete ha (by decide) (truthsVal_agrees NoRepeats) h.capabilities
    have h4 := field_complete ha (by decide) (recordVal_agrees ipam_agrees rfl) h.ipam
    have h5 := field_complete ha (by decide) (recordVal_agrees dns_agrees rfl) h.dns
    have h6 := field_complete ha (by decide) (anyVal_agrees NoRepeats) h.rawPrev
    have h7 := field_complete ha (by decide) (listVal_agrees (record_agrees attachment_agrees)) h.attachments
    simp only [decPluginConf, structMembers, Option.bind_eq_bind, Option.bind_some, h0, h1, h2, h3, h4, h5, h6, h7]
    rw [← h.prevResult]
  · have hs := single_of ha (hP ms (.self _))
    have hm : ∀ m ∈ ms, NoRepeats m.2 := fun m hm => noRepeats_member hP hm
    simp only [decPluginConf, structMembers, Option.bind_eq_bind, Option.bind_some, Option.bind_eq_some_iff, Option.some.injEq] at h
    obtain ⟨a0, h0, a1, h1, a2, h2, a3, h3, a4, h4, a5, h5, a6, h6, a7, h7, rfl⟩ := h
    exact ⟨field_sound ha (by decide) hs (textVal_agrees NoRepeats) hm h0, field_sound ha (by decide) hs (textVal_agrees NoRepeats) hm h1,
      field_sound ha (by decide) hs (textVal_agrees NoRepeats) hm h2, field_sound ha (by decide) hs (truthsVal_agrees NoRepeats) hm h3,
      field_sound ha (by decide) hs (recordVal_agrees ipam_agrees rfl) hm h4, field_sound ha (by decide) hs (recordVal_agrees dns_agrees rfl) hm h5,
      field_sound ha (by decide) hs (anyVal_agrees NoRepeats) hm h6,
      field_sound ha (by decide) hs (listVal_agrees (record_agrees attachment_agrees)) hm h7, rfl⟩
  · cases j with
    | null => exact .inl rfl
    | obj ms => exact .inr ⟨ms, rfl⟩
    | _ => cases h

/-- C86: a text is loaded as a plugin configuration exactly if it is a JSON document whose fields are a configuration's, with a plugin type; what is loaded
are these fields and the text itself. -/
theorem c86_config (b : Bytes) (j : Json) (p : PluginConfig) (hb : JsonText b j) (hP : NoRepeats j) :
    pluginConfFromBytes b = .ok p ↔ Record IsConf j p.network ∧ p.network.type ≠ [] ∧ p.bytes = b := by
  have hp := (c84_syntax b j).2 hb
  have hr := record_agrees conf_agrees
  simp only [pluginConfFromBytes, hp]
  constructor
  · intro h
    cases hd : decPluginConf j with
    | none => rw [hd] at h; cases h
    | some c =>
    rw [hd] at h
    simp only at h
    split at h
    · cases h
    · rename_i ht
      cases h
      exact ⟨hr.2 _ _ hP hd, ht, rfl⟩
  · rintro ⟨h, ht, e⟩
    obtain ⟨c, b'⟩ := p
    simp only at h ht e
    subst e
    simp only [hr.1 _ _ h, if_neg ht]


/-! ### witnesses -/

/-- Test data; models no code: no two names are equal up to letter case. -/
def foldDistinct : List (Bytes × Json) → Bool
  | [] => true
  | m :: ms => ms.all (fun m' => foldKey m.1 ≠ foldKey m'.1) && foldDistinct ms

mutual
/-- Test data; models no code: a check for `NoRepeats`. -/
def repFree : Json → Bool
  | .arr l => repFreeList l
  | .obj ms => foldDistinct ms && repFreeMembers ms
  | _ => true
/-- Test data; models no code. -/
def repFreeList : List Json → Bool
  | [] => true
  | j :: l => repFree j && repFreeList l
/-- Test data; models no code. -/
def repFreeMembers : List (Bytes × Json) → Bool
  | [] => true
  | (_, j) :: l => repFree j && repFreeMembers l
end

theorem foldDistinct_pairwise {ms : List (Bytes × Json)} (h : foldDistinct ms = true) :
    ms.Pairwise fun m m' => ∀ f : Bytes, (∀ c ∈ f, c.toNat < 128) → ¬ (NameFor f m.1 ∧ NameFor f m'.1) := by
  induction ms with
  | nil => exact .nil
  | cons m ms ih =>
    simp only [foldDistinct, Bool.and_eq_true, List.all_eq_true, decide_eq_true_eq] at h
    refine .cons (fun m' hm' f hf e => ?_) (ih h.2)
    exact h.1 m' hm' (((nameFor_iff hf _).1 e.1).trans ((nameFor_iff hf _).1 e.2).symm)

theorem repFreeList_mem {l : List Json} (h : repFreeList l = true) {j : Json} (hj : j ∈ l) : repFree j = true := by
  induction l with
  | nil => cases hj
  | cons a l ih =>
    simp only [repFreeList, Bool.and_eq_true] at h
    rcases List.mem_cons.1 hj with rfl | hj
    · exact h.1
    · exact ih h.2 hj

theorem repFreeMembers_mem {l : List (Bytes × Json)} (h : repFreeMembers l = true) {m : Bytes × Json} (hm : m ∈ l) : repFree m.2 = true := by
  induction l with
  | nil => cases hm
  | cons a l ih =>
    obtain ⟨k, j⟩ := a
    simp only [repFreeMembers, Bool.and_eq_true] at h
    rcases List.mem_cons.1 hm with rfl | hm
    · exact h.1
    · exact ih h.2 hm

theorem noRepeats_of {j : Json} (h : repFree j = true) : NoRepeats j := by
  intro ms hw
  induction hw with
  | self =>
    simp only [repFree, Bool.and_eq_true] at h
    exact foldDistinct_pairwise h.1
  | elem he _ ih =>
    simp only [repFree] at h
    exact ih (repFreeList_mem h he)
  | member hm _ ih =>
    simp only [repFree, Bool.and_eq_true] at h
    exact ih (repFreeMembers_mem h.2 hm)

/-- Test data; models no code: a result with names in other letter case, an unknown member and a `null`. -/
def oddResult : Bytes :=
  b!"{\"CNIVersion\":\"1.0.0\", \"extra\":[1], \"IPs\":[{\"address\":\"10.0.0.2/24\",\"INTERFACE\":0}, null], \"interfaces\":[{\"name\":\"eth0\",\"MTU\":1500}], \"dns\":null}"

/-- Test data; models no code. -/
def oddRead : R100 :=
  { cniVersion := b!"1.0.0", interfaces := [some { name := b!"eth0", mtu := 1500 }],
    ips := [some { interface := some 0, address := ⟨[0, 0, 0, 0, 0, 0, 0, 0, 0, 0, 255, 255, 10, 0, 0, 2], [255, 255, 255, 0]⟩ }, none] }

/-- Test data; models no code. -/
def oddJson : Json := (Json.parse oddResult).getD .null

theorem oddJson_text : JsonText oddResult oddJson := (c84_syntax _ _).1 (by decide +kernel)
theorem oddJson_once : NoRepeats oddJson := noRepeats_of (by decide +kernel)

/-- The sample is a result and says what it seems to say. -/
example : SaysResult b!"1.1.0" oddJson (.v100 oddRead) := by
  have h : createJson b!"1.1.0" oddJson = .ok (.v100 oddRead) := by
    have : (createJson b!"1.1.0" oddJson).toOption = some (.v100 oddRead) := by decide +kernel
    revert this
    cases createJson b!"1.1.0" oddJson <;> simp [Out.toOption]
  exact saysResult_sound oddJson_once h

/-- It is not a result of an older form. -/
example (r : Result) : ¬ SaysResult b!"0.4.0" oddJson r := by
  intro h
  have h := saysResult_complete h
  have : (createJson b!"0.4.0" oddJson).toOption = none := by decide +kernel
  rw [h] at this
  cases this

/-- Derived in the specification alone: what an interface says. -/
example : IsIntf040 [(b!"NAME", .str b!"eth0"), (b!"x", .null)] { name := b!"eth0" } := by
  have hn : ∀ f k : Bytes, (∀ c ∈ f, c.toNat < 128) → foldKey k ≠ foldKey f → ¬ NameFor f k := fun f k hf h e => h ((nameFor_iff hf k).1 e)
  have hx : ∀ f ∈ [b!"name", b!"mac", b!"sandbox"], ¬ NameFor f b!"x" := by
    intro f hf
    simp only [List.mem_cons, List.not_mem_nil, or_false] at hf
    rcases hf with rfl | rfl | rfl <;> exact hn _ _ (by decide) (by decide +kernel)
  refine ⟨⟨some (.str b!"eth0"), ⟨[], b!"NAME", [(b!"x", .null)], rfl, ?_, ?_⟩, .text _⟩, ⟨none, ?_, .absent⟩, ⟨none, ?_, .absent⟩⟩
  · exact .upper (by decide) (by decide) (.upper (by decide) (by decide) (.upper (by decide) (by decide) (.upper (by decide) (by decide) .nil)))
  · intro m hm
    simp only [List.nil_append, List.mem_singleton] at hm
    subst hm
    exact hx _ (by decide)
  all_goals
    intro m hm
    simp only [List.mem_cons, List.not_mem_nil, or_false] at hm
    rcases hm with rfl | rfl
    · exact hn _ _ (by decide) (by decide +kernel)
    · exact hx _ (by decide)

/-- The Kelvin sign and the long s. -/
example : NameFor b!"ips" [73, 112, 0xC5, 0xBF] ∧ NameFor b!"socketPath" ([83, 111, 99] ++ [0xE2, 0x84, 0xAA] ++ b!"ETpath") := by
  constructor
  · exact (nameFor_iff (by decide) _).2 (by decide +kernel)
  · exact (nameFor_iff (by decide) _).2 (by decide +kernel)

/-- Wrong values are refused: a fraction for an interface index, `null` for an address, a number for a name. -/
example : (create b!"1.0.0" b!"{\"cniVersion\":\"1.0.0\",\"ips\":[{\"interface\":0.5,\"address\":\"1.2.3.4/8\"}]}").toOption = none ∧
    (create b!"1.0.0" b!"{\"cniVersion\":\"1.0.0\",\"ips\":[{\"address\":null}]}").toOption = none ∧
    (create b!"1.0.0" b!"{\"cniVersion\":\"1.0.0\",\"interfaces\":[{\"name\":7}]}").toOption = none ∧
    (create b!"1.0.0" b!"{\"cniVersion\":\"0.4.0\"}").toOption = none := by decide +kernel

/-- A configuration, and one without a type. -/
example : (pluginConfFromBytes b!"{\"Type\":\"bridge\",\"capabilities\":{\"a\":true,\"b\":null},\"ipam\":{\"TYPE\":\"host-local\"}}").toOption.map
      (fun p => (p.network.type, p.network.capabilities, p.network.ipamType)) = some (b!"bridge", [(b!"a", true), (b!"b", false)], b!"host-local") ∧
    (pluginConfFromBytes b!"{\"name\":\"n\"}").toOption.isNone := by decide +kernel

end Verif
