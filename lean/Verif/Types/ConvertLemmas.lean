/- Lemmas about result conversion. -/
import Verif.Types.Results

namespace Verif
set_option linter.unusedSimpArgs false

theorem Route.copy_eq (r : Route) : r.copy = r := rfl

theorem Ip020.copy_eq (i : Ip020) : i.copy = i := by
  cases i; simp [Ip020.copy, Route.copy_eq, show Route.copy = id from rfl]

theorem map_ip020copy (o : Option Ip020) : o.map Ip020.copy = o := by
  cases o <;> simp [Ip020.copy_eq]

theorem map_routecopy (l : List (Option Route)) : l.map (fun x => x.map Route.copy) = l := by
  induction l with
  | nil => rfl
  | cons a l ih => cases a <;> simp [ih, Route.copy_eq]

theorem mapDeref_some {α β : Type} (f : α → β) (l : List α) :
    mapDeref f (l.map some) = .ok (l.map fun a => some (f a)) := by
  induction l with
  | nil => rfl
  | cons a l ih => simp [mapDeref, ih]

theorem exists_map_some {α : Type} {l : List (Option α)} (h : none ∉ l) :
    ∃ l' : List α, l = l'.map some := by
  induction l with
  | nil => exact ⟨[], rfl⟩
  | cons a l ih =>
    obtain ⟨l', e⟩ := ih (fun hh => h (by simp [hh]))
    cases a with
    | none => simp at h
    | some a => exact ⟨a :: l', by simp [e]⟩

theorem mapDeref_ok {α β : Type} {f : α → β} {l : List (Option α)} {l' : List (Option β)}
    (h : mapDeref f l = .ok l') : none ∉ l ∧ l' = l.map (fun a => a.map f) := by
  induction l generalizing l' with
  | nil => simp [mapDeref] at h; simp [h]
  | cons a l ih =>
    cases a with
    | none => simp [mapDeref] at h
    | some a =>
      simp only [mapDeref] at h
      split at h
      · rename_i l1 h1
        simp only [Out.ok.injEq] at h
        obtain ⟨h2, h3⟩ := ih h1
        subst h
        simp [h2, h3]
      · simp at h
      · simp at h

theorem mapDeref_not_err {α β : Type} {f : α → β} {l : List (Option α)} {e : GoErr} :
    mapDeref f l ≠ .err e := by
  induction l with
  | nil => simp [mapDeref]
  | cons a l ih =>
    cases a with
    | none => simp [mapDeref]
    | some a =>
      simp only [mapDeref]
      split
      · simp
      · rename_i e' h; intro hh; simp at hh; subst hh; exact ih h
      · simp

/-! ### the address and route loops in closed form -/

/-- The 0.2.0 form of an address (no routes yet). Proof device: models no code. -/
def toIp020 (x : Ip040) : Ip020 := { ip := x.address, gateway := x.gateway }

theorem pickIPs_some (l : List Ip040) (i4 i6 : Option Ip020) (h : ¬ (i4.isSome ∧ i6.isSome)) :
    pickIPs (l.map some) i4 i6 = .ok (
      i4.or ((l.find? fun x => x.version = b!"4").map toIp020),
      i6.or ((l.find? fun x => x.version = b!"6").map toIp020)) := by
  induction l generalizing i4 i6 with
  | nil => simp [pickIPs]
  | cons x l ih =>
    simp only [List.map_cons, pickIPs]
    by_cases h4 : x.version = b!"4"
    · have h6 : x.version ≠ b!"6" := by rw [h4]; decide
      cases i4 with
      | none =>
        simp only [h4, true_and, if_true]
        cases i6 with
        | none =>
          simp only [Option.isSome_some, Option.isSome_none, Bool.false_eq_true, and_false, if_false]
          rw [ih _ _ (by simp)]
          simp [h4, h6, toIp020]
        | some y => simp [h4, h6, toIp020]
      | some y =>
        have hi6 : i6 = none := by cases i6 <;> simp_all
        subst hi6
        simp only [h4, true_and, show ¬ ((some y : Option Ip020) = none) by simp, if_false,
          show ¬ (b!"4" = b!"6") by decide, false_and, Option.isSome_some, Option.isSome_none,
          Bool.false_eq_true, and_false]
        rw [ih _ _ (by simp)]
        simp [h4, h6]
    · by_cases h6 : x.version = b!"6"
      · simp only [h4, false_and, if_false]
        cases i6 with
        | none =>
          simp only [h6, true_and, if_true]
          cases i4 with
          | none =>
            simp only [Option.isSome_some, Option.isSome_none, Bool.false_eq_true, false_and, if_false]
            rw [ih _ _ (by simp)]
            simp [h4, h6, toIp020]
          | some y => simp [h4, h6, toIp020]
        | some y =>
          have hi4 : i4 = none := by cases i4 <;> simp_all
          subst hi4
          simp only [h6, true_and, show ¬ ((some y : Option Ip020) = none) by simp, if_false,
            Option.isSome_some, Option.isSome_none, Bool.false_eq_true, false_and]
          rw [ih _ _ (by simp)]
          simp [h4, h6]
      · simp only [h4, h6, false_and, if_false, h]
        rw [ih _ _ h]
        simp [h4, h6]

theorem pickIPs_not_err {l : List (Option Ip040)} {i4 i6 : Option Ip020} {e : GoErr} :
    pickIPs l i4 i6 ≠ .err e := by
  induction l generalizing i4 i6 with
  | nil => simp [pickIPs]
  | cons x l ih =>
    cases x with
    | none => simp [pickIPs]
    | some x =>
      simp only [pickIPs]
      repeat' split
      all_goals first | exact ih | simp

/-- Proof device: models no code. -/
def routeIs4 (r : Route) : Bool := (IP.to4 r.dst.ip).isSome

/-- The 0.2.0 form of a route. Proof device: models no code. -/
def toRoute020 (r : Route) : Route := { dst := r.dst, gw := r.gw }

theorem pickRoutes_some (l : List Route) (i4 i6 : Option Ip020) :
    pickRoutes (l.map some) i4 i6 = .ok (
      i4.map (fun x => { x with routes := x.routes ++ (l.filter routeIs4).map toRoute020 }),
      i6.map (fun x => { x with routes := x.routes ++ (l.filter (fun r => !routeIs4 r)).map toRoute020 })) := by
  induction l generalizing i4 i6 with
  | nil => cases i4 <;> cases i6 <;> simp [pickRoutes]
  | cons r l ih =>
    simp only [List.map_cons, pickRoutes]
    cases h : routeIs4 r with
    | true =>
      have h' : (IP.to4 r.dst.ip).isSome = true := h
      cases i4 with
      | none => simp [h', ih, h]
      | some x => simp [h', ih, h, toRoute020]
    | false =>
      have h' : (IP.to4 r.dst.ip).isSome = false := h
      cases i6 with
      | none => simp [h', ih, h]
      | some x => simp [h', ih, h, toRoute020]

theorem pickRoutes_not_err {l : List (Option Route)} {i4 i6 : Option Ip020} {e : GoErr} :
    pickRoutes l i4 i6 ≠ .err e := by
  induction l generalizing i4 i6 with
  | nil => simp [pickRoutes]
  | cons x l ih =>
    cases x with
    | none => simp [pickRoutes]
    | some x =>
      simp only [pickRoutes]
      split
      · exact ih
      · split <;> exact ih

theorem pickRoutes_isSome {l : List (Option Route)} {i4 i6 j4 j6 : Option Ip020}
    (h : pickRoutes l i4 i6 = .ok (j4, j6)) : j4.isSome = i4.isSome ∧ j6.isSome = i6.isSome := by
  induction l generalizing i4 i6 with
  | nil => simp [pickRoutes] at h; simp [h]
  | cons x l ih =>
    cases x with
    | none => simp [pickRoutes] at h
    | some x =>
      simp only [pickRoutes] at h
      split at h
      · have := ih h; simpa using this
      · split at h
        · have := ih h; simpa using this
        · exact ih h

/-! ### unrolling -/

/-- The version of every table row and which result type its function expects. Proof device: models
no code. -/
inductive Ty where
  | t020 | t040 | t100
  deriving DecidableEq, Repr

/-- Proof device: models no code. -/
def Result.ty : Result → Ty
  | .v020 _ => .t020
  | .v040 _ => .t040
  | .v100 _ => .t100

/-- Proof device: models no code. -/
def Conv.src : Conv → Ty
  | .c020From010 | .c020To010 | .c040From02x | .c100From02x => .t020
  | .c040Internal | .c040To02x | .c100From04x => .t040
  | .c100From100 | .c100To04x | .c100To02x => .t100

/-- Proof device: models no code. -/
def Conv.dst : Conv → Ty
  | .c020From010 | .c020To010 | .c040To02x | .c100To02x => .t020
  | .c040From02x | .c040Internal | .c100To04x => .t040
  | .c100From02x | .c100From04x | .c100From100 => .t100

theorem findConverter_mem {v w : Bytes} {c : Conv} (h : findConverter v w = some c) :
    ∃ row ∈ converters, row.1 = v ∧ w ∈ row.2.1 ∧ row.2.2 = c := by
  simp only [findConverter, Option.map_eq_some_iff] at h
  obtain ⟨row, hr, e⟩ := h
  have h1 := List.find?_some hr
  have h2 := List.mem_of_find?_eq_some hr
  simp at h1
  exact ⟨row, h2, h1.1, h1.2, e⟩

theorem convertTo04x_version {r r' : Result} {v : Bytes} (h : convertTo04x r v = .ok r') :
    r'.version = v ∧ r'.ty = .t040 := by
  unfold convertTo04x at h
  split at h
  · split at h
    · split at h
      · simp at h; rw [← h]; exact ⟨rfl, rfl⟩
      · simp at h
      · simp at h
    · simp at h
    · simp at h
  · simp at h

theorem convertFrom04x_version {r r' : Result} {v : Bytes} (h : convertFrom04x r v = .ok r') :
    r'.version = v ∧ r'.ty = .t100 := by
  unfold convertFrom04x at h
  split at h
  · split at h
    · split at h
      · simp at h; rw [← h]; exact ⟨rfl, rfl⟩
      · simp at h
      · simp at h
    · simp at h
    · simp at h
  · simp at h

theorem from02x_rows : ∀ row ∈ converters, row.2.2 = Conv.c100From02x → row.1 = b!"0.1.0" ∨ row.1 = b!"0.2.0" := by
  decide

theorem to02x_rows : ∀ row ∈ converters, row.2.2 = Conv.c100To02x → ∀ w ∈ row.2.1, w = b!"0.1.0" ∨ w = b!"0.2.0" := by
  decide

/-- The inner `Convert` calls made by the 1.x converters do not recurse further. -/
theorem convertStep_inner_up (again : Result → Bytes → Out Result) (r : Result)
    (h : r.version = b!"0.1.0" ∨ r.version = b!"0.2.0") :
    convertStep again r b!"0.4.0" = convert040From02x r b!"0.4.0" := by
  have h1 : findConverter b!"0.1.0" b!"0.4.0" = some .c040From02x := by decide
  have h2 : findConverter b!"0.2.0" b!"0.4.0" = some .c040From02x := by decide
  rcases h with h | h
  · simp [convertStep, h, h1, applyConv]
  · simp [convertStep, h, h2, applyConv]

theorem convertStep_inner_down (again : Result → Bytes → Out Result) (r : Result) {w : Bytes}
    (hr : r.version = b!"0.4.0") (h : w = b!"0.1.0" ∨ w = b!"0.2.0") :
    convertStep again r w = convert040To02x r w := by
  have h1 : findConverter b!"0.4.0" b!"0.1.0" = some .c040To02x := by decide
  have h2 : findConverter b!"0.4.0" b!"0.2.0" = some .c040To02x := by decide
  rcases h with rfl | rfl
  · simp [convertStep, hr, h1, applyConv]
  · simp [convertStep, hr, h2, applyConv]

/-- Unrolling `Convert` further than two calls changes nothing, so `convert` is the recursive
function of the code. -/
theorem convertN_stable (n : Nat) : convertN (n + 2) = convert := by
  funext r w
  show convertStep (convertN (n + 1)) r w = convertStep (convertN 1) r w
  unfold convertStep
  simp only []
  generalize (if w = [] then b!"0.1.0" else w) = to
  split
  · rfl
  · split
    · rfl
    · rename_i c hc
      obtain ⟨row, hm, h1, h2, h3⟩ := findConverter_mem hc
      cases c with
      | c100From02x =>
        have hv := from02x_rows row hm h3
        rw [h1] at hv
        simp only [applyConv, convertN, convertStep_inner_up _ r hv]
      | c100To02x =>
        have hw := to02x_rows row hm h3 _ h2
        simp only [applyConv]
        cases h4 : convertTo04x r b!"0.4.0" with
        | ok r' =>
          have := (convertTo04x_version h4).1
          simp only [convertN, convertStep_inner_down _ r' this hw]
        | err e => rfl
        | panic => rfl
      | _ => rfl

/-- `Convert` in closed form: what each registered converter computes. Proof device: models no code.
-/
def applyConvFlat : Conv → Result → Bytes → Out Result
  | .c020From010, r, v => convertFrom010 r v
  | .c020To010, r, v => convertTo010 r v
  | .c040From02x, r, v => convert040From02x r v
  | .c040Internal, r, v => convertInternal r v
  | .c040To02x, r, v => convert040To02x r v
  | .c100From02x, r, v => match convert040From02x r b!"0.4.0" with
    | .ok r' => convertFrom04x r' v
    | .err e => .err e
    | .panic => .panic
  | .c100From04x, r, v => convertFrom04x r v
  | .c100From100, r, v => convertFrom100 r v
  | .c100To04x, r, v => convertTo04x r v
  | .c100To02x, r, v => match convertTo04x r b!"0.4.0" with
    | .ok r' => convert040To02x r' v
    | .err e => .err e
    | .panic => .panic

theorem convert_of_find {r : Result} {w : Bytes} {c : Conv} (hw : w ≠ []) (hne : r.version ≠ w)
    (hc : findConverter r.version w = some c) : convert r w = applyConvFlat c r w := by
  obtain ⟨row, hm, h1, h2, h3⟩ := findConverter_mem hc
  show convertStep (convertN 1) r w = _
  unfold convertStep
  simp only [hw, if_false, hne, hc]
  cases c with
  | c100From02x =>
    have hv := from02x_rows row hm h3
    rw [h1] at hv
    simp only [applyConv, applyConvFlat, convertN, convertStep_inner_up _ r hv]
    cases convert040From02x r b!"0.4.0" <;> rfl
  | c100To02x =>
    have hw := to02x_rows row hm h3 _ h2
    simp only [applyConv, applyConvFlat]
    cases h4 : convertTo04x r b!"0.4.0" with
    | ok r' =>
      have := (convertTo04x_version h4).1
      simp only [convertN, convertStep_inner_down _ r' this hw]
    | err e => rfl
    | panic => rfl
  | _ => rfl

theorem convert_same (r : Result) (h : r.version ≠ []) : convert r r.version = .ok r := by
  show convertStep _ r r.version = _
  simp [convertStep, h]

theorem convert_empty (r : Result) : convert r [] = convert r b!"0.1.0" := by
  show convertStep _ r _ = convertStep _ r _
  simp [convertStep]

theorem convert_none {r : Result} {w : Bytes} (hw : w ≠ []) (hne : r.version ≠ w)
    (hc : findConverter r.version w = none) : ∃ e, convert r w = .err e := by
  refine ⟨.text (b!"no converter for CNI result version " ++ r.version ++ b!" to " ++ w), ?_⟩
  show convertStep _ r w = _
  simp only [convertStep, hw, if_false, hne, hc]

end Verif
