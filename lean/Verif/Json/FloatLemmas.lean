/- The model's rounding against Verif.Spec.Float. -/
import Verif.Json.Num
import Verif.Json.GrammarNum
import Verif.Base.DigitLemmas
import Verif.Spec.Float

namespace Verif
open Spec
set_option exponentiation.threshold 3000

theorem rhe_min {N U : Nat} (hU : 0 < U) (c : Nat) :
    ((N : Int) - (rhe N U * U : Nat)).natAbs ≤ ((N : Int) - (c * U : Nat)).natAbs ∧
    (c ≠ rhe N U → ((N : Int) - (c * U : Nat)).natAbs = ((N : Int) - (rhe N U * U : Nat)).natAbs → rhe N U % 2 = 0) := by
  have hN : N = N / U * U + N % U := by rw [Nat.mul_comm]; exact (Nat.div_add_mod N U).symm
  have hr : N % U < U := Nat.mod_lt _ hU
  have hs : (N / U + 1) * U = N / U * U + U := by rw [Nat.add_mul, Nat.one_mul]
  have hc : c * U ≤ N / U * U ∧ (c ≠ N / U → c * U + U ≤ N / U * U) ∨ N / U * U + U ≤ c * U ∧ (c ≠ N / U + 1 → N / U * U + 2 * U ≤ c * U) := by
    rcases Nat.lt_or_ge (N / U) c with h | h
    · right
      refine ⟨?_, fun h' => ?_⟩
      · rw [← hs]; exact Nat.mul_le_mul_right _ h
      · have : (N / U + 2) * U ≤ c * U := Nat.mul_le_mul_right _ (by omega)
        rwa [Nat.add_mul] at this
    · left
      refine ⟨Nat.mul_le_mul_right _ h, fun h' => ?_⟩
      have : (c + 1) * U ≤ N / U * U := Nat.mul_le_mul_right _ (by omega)
      rwa [Nat.add_mul, Nat.one_mul] at this
  by_cases hq : c = N / U
  · subst hq
    unfold rhe
    simp only []
    split
    · generalize N / U * U = Q at *
      generalize N % U = r at *
      constructor <;> omega
    · split
      · rw [hs]
        generalize N / U * U = Q at *
        generalize N % U = r at *
        constructor <;> omega
      · rcases Nat.mod_two_eq_zero_or_one (N / U) with h2 | h2
        · rw [h2]
          simp only [Nat.add_zero]
          exact ⟨Nat.le_refl _, fun h => absurd rfl h⟩
        · rw [h2, hs]
          generalize N / U * U = Q at *
          generalize N % U = r at *
          refine ⟨by omega, fun _ _ => by omega⟩
  · have hlt : c * U ≤ N / U * U ∧ c * U + U ≤ N / U * U ∨ N / U * U + U ≤ c * U ∧ (c ≠ N / U + 1 → N / U * U + 2 * U ≤ c * U) := by
      rcases hc with h | h
      · exact .inl ⟨h.1, h.2 hq⟩
      · exact .inr h
    unfold rhe
    simp only []
    split
    · generalize N / U * U = Q at *
      generalize c * U = C at *
      constructor <;> omega
    · split
      · rw [hs]
        by_cases hq1 : c = N / U + 1
        · subst hq1
          rw [hs]
          exact ⟨Nat.le_refl _, fun h => absurd rfl h⟩
        · generalize N / U * U = Q at *
          generalize c * U = C at *
          constructor <;> omega
      · rcases Nat.mod_two_eq_zero_or_one (N / U) with h2 | h2
        · rw [h2]
          simp only [Nat.add_zero]
          generalize N / U * U = Q at *
          generalize c * U = C at *
          refine ⟨by omega, fun _ _ => h2⟩
        · rw [h2, hs]
          generalize N / U * U = Q at *
          generalize c * U = C at *
          refine ⟨by omega, fun _ _ => by omega⟩


/-- The double of `num / den` before the range check. Proof device: models no code. -/
def roundPair (num den : Nat) : Nat × Nat :=
  if rhe (num * 2 ^ 1074) (den * 2 ^ (Nat.log2 (num * 2 ^ 1074 / den) - 52)) = 2 ^ 53 then (2 ^ 52, Nat.log2 (num * 2 ^ 1074 / den) - 52 + 1)
  else (rhe (num * 2 ^ 1074) (den * 2 ^ (Nat.log2 (num * 2 ^ 1074 / den) - 52)), Nat.log2 (num * 2 ^ 1074 / den) - 52)

theorem roundRat_pair (neg : Bool) (num den : Nat) :
    roundRat neg num den = if (roundPair num den).2 ≤ 2045 then some ⟨neg, (roundPair num den).1, (roundPair num den).2⟩ else none := by
  unfold roundRat roundPair
  simp only []
  split <;> rfl

/-- How far apart, for a quotient. Proof device: models no code. -/
def gap (num den m k : Nat) : Nat := ((num * 2 ^ 1074 : Nat) - (m * 2 ^ k * den : Nat) : Int).natAbs

theorem binary_value {m k m' k' : Nat} (h : Binary m k) (h' : Binary m' k') (hk : k ≤ k') (he : m * 2 ^ k = m' * 2 ^ k') : m = m' ∧ k = k' := by
  obtain ⟨h1, h2⟩ := h
  obtain ⟨h3, h4⟩ := h'
  obtain ⟨d, rfl⟩ := Nat.exists_eq_add_of_le hk
  rw [Nat.pow_add, ← Nat.mul_assoc, Nat.mul_right_comm] at he
  have he := Nat.eq_of_mul_eq_mul_right (Nat.two_pow_pos k) he
  cases d with
  | zero => simpa using he
  | succ d =>
    rcases h4 with h4 | h4
    · omega
    · exfalso
      have : m' * 2 ≤ m' * 2 ^ (d + 1) := Nat.mul_le_mul_left _ (by rw [Nat.pow_succ]; have := Nat.two_pow_pos d; omega)
      omega

theorem roundPair_nearest (num : Nat) {den : Nat} (hden : 0 < den) :
    Binary (roundPair num den).1 (roundPair num den).2 ∧
    ∀ m' k', Binary m' k' → gap num den (roundPair num den).1 (roundPair num den).2 ≤ gap num den m' k' ∧
      ((m', k') ≠ roundPair num den → gap num den m' k' = gap num den (roundPair num den).1 (roundPair num den).2 → (roundPair num den).1 % 2 = 0) := by
  generalize hk0 : Nat.log2 (num * 2 ^ 1074 / den) - 52 = k0
  have hU : 0 < den * 2 ^ k0 := Nat.mul_pos hden (Nat.two_pow_pos _)
  have hmin := fun c => rhe_min (N := num * 2 ^ 1074) hU c
  have hb := rhe_bounds (num * 2 ^ 1074) (den * 2 ^ k0)
  have hq : num * 2 ^ 1074 / (den * 2 ^ k0) = num * 2 ^ 1074 / den / 2 ^ k0 := (Nat.div_div_eq_div_mul ..).symm
  have hlt : num * 2 ^ 1074 / (den * 2 ^ k0) < 2 ^ 53 := by
    rw [hq, Nat.div_lt_iff_lt_mul (Nat.two_pow_pos _), ← Nat.pow_add]
    exact Nat.lt_of_lt_of_le (log2_upper _) (Nat.pow_le_pow_right (by decide) (by omega))
  have hge : k0 ≠ 0 → 2 ^ 52 ≤ num * 2 ^ 1074 / (den * 2 ^ k0) := by
    intro h
    rw [hq, Nat.le_div_iff_mul_le (Nat.two_pow_pos _), ← Nat.pow_add]
    have hne : num * 2 ^ 1074 / den ≠ 0 := by
      intro h0
      rw [h0] at hk0
      simp at hk0
      omega
    exact Nat.le_trans (Nat.pow_le_pow_right (by decide) (by omega)) (log2_lower hne)
  have hp : roundPair num den = if rhe (num * 2 ^ 1074) (den * 2 ^ k0) = 2 ^ 53 then (2 ^ 52, k0 + 1) else (rhe (num * 2 ^ 1074) (den * 2 ^ k0), k0) := by
    unfold roundPair
    rw [hk0]
  have hgap : ∀ m' k', Binary m' k' → ((num * 2 ^ 1074 : Nat) - (rhe (num * 2 ^ 1074) (den * 2 ^ k0) * (den * 2 ^ k0) : Nat) : Int).natAbs ≤ gap num den m' k' ∧
      (m' * 2 ^ k' ≠ rhe (num * 2 ^ 1074) (den * 2 ^ k0) * 2 ^ k0 →
        gap num den m' k' = ((num * 2 ^ 1074 : Nat) - (rhe (num * 2 ^ 1074) (den * 2 ^ k0) * (den * 2 ^ k0) : Nat) : Int).natAbs →
        rhe (num * 2 ^ 1074) (den * 2 ^ k0) % 2 = 0) := by
    intro m' k' hB
    rcases Nat.lt_or_ge k' k0 with hk | hk
    · have h52 := hge (by omega)
      have h1 : m' * 2 ^ k' * den < 2 ^ 52 * (den * 2 ^ k0) := by
        have : m' * 2 ^ k' < 2 ^ 52 * 2 ^ k0 := by
          calc m' * 2 ^ k' < 2 ^ 53 * 2 ^ k' := Nat.mul_lt_mul_of_pos_right hB.1 (Nat.two_pow_pos _)
            _ = 2 ^ (53 + k') := (Nat.pow_add ..).symm
            _ ≤ 2 ^ (52 + k0) := Nat.pow_le_pow_right (by decide) (by omega)
            _ = _ := Nat.pow_add ..
        rw [Nat.mul_comm den, ← Nat.mul_assoc]
        exact Nat.mul_lt_mul_of_pos_right this hden
      have h2 : 2 ^ 52 * (den * 2 ^ k0) ≤ num * 2 ^ 1074 := by
        rwa [Nat.le_div_iff_mul_le hU] at h52
      have h3 := (hmin (2 ^ 52)).1
      unfold gap
      generalize ((num * 2 ^ 1074 : Nat) - (rhe (num * 2 ^ 1074) (den * 2 ^ k0) * (den * 2 ^ k0) : Nat) : Int).natAbs = A at *
      generalize 2 ^ 52 * (den * 2 ^ k0) = B at *
      generalize m' * 2 ^ k' * den = C at *
      generalize num * 2 ^ 1074 = N at *
      refine ⟨by omega, fun _ _ => by omega⟩
    · obtain ⟨d, rfl⟩ := Nat.exists_eq_add_of_le hk
      have h1 : m' * 2 ^ (k0 + d) = m' * 2 ^ d * 2 ^ k0 := by rw [Nat.pow_add]; ac_rfl
      have h2 : m' * 2 ^ (k0 + d) * den = m' * 2 ^ d * (den * 2 ^ k0) := by rw [h1]; ac_rfl
      unfold gap
      rw [h2]
      refine ⟨(hmin _).1, fun hne => (hmin _).2 ?_⟩
      intro h
      apply hne
      rw [h1, h]
  rw [hp]
  split
  · rename_i h53
    refine ⟨⟨Nat.pow_lt_pow_right (by decide) (by decide), .inr (Nat.le_refl _)⟩, fun m' k' hB => ⟨?_, fun _ _ => (by decide : (2 : Nat) ^ 52 % 2 = 0)⟩⟩
    have := (hgap m' k' hB).1
    rw [h53] at this
    refine Nat.le_trans (Nat.le_of_eq ?_) this
    unfold gap
    simp only []
    rw [show 2 ^ 52 * 2 ^ (k0 + 1) * den = 2 ^ 53 * (den * 2 ^ k0) by
      rw [← Nat.pow_add, Nat.mul_left_comm, ← Nat.pow_add, Nat.mul_comm, show 52 + (k0 + 1) = 53 + k0 by omega]]
  · rename_i h53
    have hB0 : Binary (rhe (num * 2 ^ 1074) (den * 2 ^ k0)) k0 := by
      refine ⟨?_, ?_⟩
      · omega
      · by_cases h : k0 = 0
        · exact .inl h
        · exact .inr (Nat.le_trans (hge h) hb.1)
    have hg : gap num den (rhe (num * 2 ^ 1074) (den * 2 ^ k0)) k0 =
        ((num * 2 ^ 1074 : Nat) - (rhe (num * 2 ^ 1074) (den * 2 ^ k0) * (den * 2 ^ k0) : Nat) : Int).natAbs := by
      unfold gap
      congr 3
      ac_rfl
    refine ⟨hB0, fun m' k' hB => ?_⟩
    simp only []
    rw [hg]
    refine ⟨(hgap m' k' hB).1, fun hne => (hgap m' k' hB).2 ?_⟩
    intro he
    apply hne
    rcases Nat.le_total k' k0 with h | h
    · obtain ⟨rfl, rfl⟩ := binary_value hB hB0 h he
      rfl
    · obtain ⟨rfl, rfl⟩ := binary_value hB0 hB h he.symm
      rfl

theorem apart_gap (D : Nat) (E : Int) (m k : Nat) : apart D E m k = gap (D * 10 ^ E.toNat) (10 ^ (-E).toNat) m k := by
  unfold apart gap
  rfl

/-- The double of `D * 10 ^ E` before the range check. Proof device: models no code. -/
def pairOf (D : Nat) (E : Int) : Nat × Nat := roundPair (D * 10 ^ E.toNat) (10 ^ (-E).toNat)

theorem nearest_of {num den D : Nat} {E : Int} (p : Nat × Nat) (ha : ∀ m k, apart D E m k = gap num den m k)
    (h : Binary p.1 p.2 ∧ ∀ m' k', Binary m' k' → gap num den p.1 p.2 ≤ gap num den m' k' ∧
      ((m', k') ≠ p → gap num den m' k' = gap num den p.1 p.2 → p.1 % 2 = 0)) : Nearest D E p.1 p.2 := by
  refine ⟨h.1, fun m' k' hB => ?_, fun m' k' hB hne => ?_⟩
  · rw [ha, ha]
    exact (h.2 m' k' hB).1
  · rw [ha, ha]
    exact (h.2 m' k' hB).2 hne

theorem pairOf_nearest (D : Nat) (E : Int) : Nearest D E (pairOf D E).1 (pairOf D E).2 :=
  nearest_of _ (apart_gap D E) (roundPair_nearest _ (Nat.pow_pos (by decide)))

theorem toF64_pair (p : NumParts) {D : Nat} {E : Int} (hD : digitsVal (p.ip ++ p.fp) = D) (hE : expVal p.ex - p.fp.length = E) :
    p.toF64 = if (pairOf D E).2 ≤ 2045 then some ⟨p.neg, (pairOf D E).1, (pairOf D E).2⟩ else none := by
  unfold NumParts.toF64 pairOf
  simp only [hD, hE]
  rw [← roundRat_pair]
  cases E with
  | ofNat e =>
    have h1 : (Int.ofNat e).toNat = e := rfl
    have h2 : (-(Int.ofNat e)).toNat = 0 := by simp
    rw [h1, h2]
  | negSucc e =>
    have h1 : (Int.negSucc e).toNat = 0 := rfl
    have h2 : (-(Int.negSucc e)).toNat = e + 1 := rfl
    rw [h1, h2]
    simp only [Nat.pow_zero, Nat.mul_one]

theorem nearest_lt {D : Nat} {E : Int} {m k m' k' : Nat} (h : Nearest D E m k) (h' : Nearest D E m' k') (hlt : m * 2 ^ k < m' * 2 ^ k') : False := by
  have heq : apart D E m k = apart D E m' k' := Nat.le_antisymm (h.best _ _ h'.binary) (h'.best _ _ h.binary)
  have hne : (m', k') ≠ (m, k) := by
    intro he
    cases he
    exact Nat.lt_irrefl _ hlt
  have e1 := h.even _ _ h'.binary hne heq.symm
  have e2 := h'.even _ _ h.binary (Ne.symm hne) heq
  have hk : k ≤ k' := by
    refine Nat.le_of_not_lt fun hk => ?_
    have h1 : 2 ^ 52 ≤ m := by
      rcases h.binary.2 with h | h
      · omega
      · exact h
    have : m' * 2 ^ k' < m * 2 ^ k := by
      calc m' * 2 ^ k' < 2 ^ 53 * 2 ^ k' := Nat.mul_lt_mul_of_pos_right h'.binary.1 (Nat.two_pow_pos _)
        _ = 2 ^ (53 + k') := (Nat.pow_add ..).symm
        _ ≤ 2 ^ (52 + k) := Nat.pow_le_pow_right (by decide) (by omega)
        _ = 2 ^ 52 * 2 ^ k := Nat.pow_add ..
        _ ≤ m * 2 ^ k := Nat.mul_le_mul_right _ h1
    omega
  have hnext : Binary (m + 1) k := by
    obtain ⟨h1, h2⟩ := h.binary
    refine ⟨by omega, ?_⟩
    rcases h2 with h2 | h2
    · exact .inl h2
    · exact .inr (by omega)
  have hmid : (m + 1) * 2 ^ k < m' * 2 ^ k' := by
    obtain ⟨d, rfl⟩ := Nat.exists_eq_add_of_le hk
    rw [Nat.pow_add, ← Nat.mul_assoc, Nat.mul_right_comm] at hlt ⊢
    have hlt := Nat.lt_of_mul_lt_mul_right hlt
    refine Nat.mul_lt_mul_of_pos_right ?_ (Nat.two_pow_pos _)
    have hev : m' * 2 ^ d % 2 = 0 := by
      rw [Nat.mul_mod, e2]
      simp
    omega
  have hb := h.best _ _ hnext
  have hden : 0 < 10 ^ (-E).toNat := Nat.pow_pos (by decide)
  have a1 : m * 2 ^ k * 10 ^ (-E).toNat < (m + 1) * 2 ^ k * 10 ^ (-E).toNat := by
    refine Nat.mul_lt_mul_of_pos_right ?_ hden
    exact Nat.mul_lt_mul_of_pos_right (Nat.lt_succ_self _) (Nat.two_pow_pos _)
  have a2 : (m + 1) * 2 ^ k * 10 ^ (-E).toNat < m' * 2 ^ k' * 10 ^ (-E).toNat := Nat.mul_lt_mul_of_pos_right hmid hden
  unfold apart at hb heq
  generalize m * 2 ^ k * 10 ^ (-E).toNat = A at *
  generalize (m + 1) * 2 ^ k * 10 ^ (-E).toNat = B at *
  generalize m' * 2 ^ k' * 10 ^ (-E).toNat = C at *
  generalize D * 10 ^ E.toNat * 2 ^ 1074 = N at *
  omega

theorem nearest_unique {D : Nat} {E : Int} {m k m' k' : Nat} (h : Nearest D E m k) (h' : Nearest D E m' k') : m = m' ∧ k = k' := by
  rcases Nat.lt_trichotomy (m * 2 ^ k) (m' * 2 ^ k') with hlt | heq | hlt
  · exact (nearest_lt h h' hlt).elim
  · rcases Nat.le_total k k' with hk | hk
    · exact binary_value h.binary h'.binary hk heq
    · obtain ⟨rfl, rfl⟩ := binary_value h'.binary h.binary hk heq.symm
      exact ⟨rfl, rfl⟩
  · exact (nearest_lt h' h hlt).elim

/-! ### number texts -/

theorem power_shape {exp : Bytes} {x : Int} (h : PowerText exp x) :
    (exp = [] ∨ ∃ e g ds, exp = e :: (g ++ ds) ∧ (e = 101 ∨ e = 69) ∧ (g = [] ∨ g = [43] ∨ g = [45]) ∧ ds ≠ [] ∧ Digits ds) ∧ expVal exp = x := by
  cases h with
  | none => exact ⟨.inl rfl, rfl⟩
  | @bare e ds n he h =>
    obtain ⟨h1, h2, rfl⟩ := decimal_iff.1 h
    refine ⟨.inr ⟨e, [], ds, rfl, he, .inl rfl, h1, digits_iff.2 h2⟩, ?_⟩
    obtain ⟨d, r, rfl⟩ := List.exists_cons_of_ne_nil h1
    have hd := isDigit_iff.1 (h2 d (List.mem_cons_self ..))
    have n1 : d ≠ 43 := by rintro rfl; revert hd; decide
    have n2 : d ≠ 45 := by rintro rfl; revert hd; decide
    simp only [expVal, if_neg n1, if_neg n2]
  | @plus e ds n he h =>
    obtain ⟨h1, h2, rfl⟩ := decimal_iff.1 h
    exact ⟨.inr ⟨e, [43], ds, rfl, he, .inr (.inl rfl), h1, digits_iff.2 h2⟩, by simp [expVal]⟩
  | @minus e ds n he h =>
    obtain ⟨h1, h2, rfl⟩ := decimal_iff.1 h
    exact ⟨.inr ⟨e, [45], ds, rfl, he, .inr (.inr rfl), h1, digits_iff.2 h2⟩, by simp [expVal]⟩

theorem shape_power {exp : Bytes}
    (h : exp = [] ∨ ∃ e g ds, exp = e :: (g ++ ds) ∧ (e = 101 ∨ e = 69) ∧ (g = [] ∨ g = [43] ∨ g = [45]) ∧ ds ≠ [] ∧ Digits ds) :
    PowerText exp (expVal exp) := by
  suffices ∃ x, PowerText exp x by
    obtain ⟨x, hx⟩ := this
    rwa [(power_shape hx).2]
  rcases h with rfl | ⟨e, g, ds, rfl, he, hg, hne, hd⟩
  · exact ⟨_, .none⟩
  · have hp : Places DecDigit 10 ds (digitsVal ds) := decimal_iff.2 ⟨hne, digits_iff.1 hd, rfl⟩
    rcases hg with rfl | rfl | rfl
    · exact ⟨_, .bare he hp⟩
    · exact ⟨_, .plus he hp⟩
    · exact ⟨_, .minus he hp⟩

theorem scan_parts {neg : Bool} {int frac fd exp : Bytes} (hi : int = [48] ∨ ∃ c ds, int = c :: ds ∧ c ≠ 48 ∧ Digits int) (hf : FractionText frac fd)
    (he : exp = [] ∨ ∃ e g ds, exp = e :: (g ++ ds) ∧ (e = 101 ∨ e = 69) ∧ (g = [] ∨ g = [43] ∨ g = [45]) ∧ ds ≠ [] ∧ Digits ds) :
    scanNum ((if neg then [45] else []) ++ int ++ frac ++ exp) = some (⟨neg, int, fd, exp⟩, []) := by
  have hexp := scanExp_complete he
  have hfrac : scanFrac (frac ++ exp) = some (fd, exp) := by
    cases hf with
    | none =>
      cases exp with
      | nil => rfl
      | cons c r =>
        have := (exp_head he c rfl).2
        simp [scanFrac, this]
    | point hne hd =>
      have := takeWhile_digits hd fun c hc => (exp_head he c hc).1
      simp [scanFrac, this, hne]
  have hnd : ∀ c ∈ (frac ++ exp).head?, isDigit c = false := by
    cases hf with
    | none => exact fun c hc => (exp_head he c hc).1
    | point hne hd =>
      intro c hc
      cases hc
      decide
  have hint : scanInt (int ++ (frac ++ exp)) = some (int, frac ++ exp) := by
    rcases hi with rfl | ⟨c, ds, rfl, h0, hd⟩
    · rfl
    · have hc : isDigit c = true := digits_iff.1 hd c (List.mem_cons_self ..)
      have := takeWhile_digits hd hnd
      simp only [List.cons_append] at this
      simp [scanInt, h0, hc, this]
  have habs : scanAbs neg (int ++ (frac ++ exp)) = some (⟨neg, int, fd, exp⟩, []) := by
    simp only [scanAbs, hint, hfrac, hexp]
  cases neg with
  | false =>
    have hne : ∃ c r, int ++ (frac ++ exp) = c :: r ∧ c ≠ 45 := by
      rcases hi with rfl | ⟨c, ds, rfl, -, hd⟩
      · exact ⟨48, _, rfl, by decide⟩
      · refine ⟨c, _, rfl, ?_⟩
        rintro rfl
        have := digits_iff.1 hd 45 (List.mem_cons_self ..)
        revert this
        decide
    obtain ⟨c, r, hcr, hc⟩ := hne
    simp only [Bool.false_eq_true, if_false, List.nil_append, List.append_assoc]
    rw [hcr]
    simp only [scanNum, if_neg hc]
    rw [← hcr]
    exact habs
  | true =>
    simp only [if_true, List.append_assoc, List.singleton_append, scanNum]
    exact habs

theorem int_digits {int : Bytes} (hi : int = [48] ∨ ∃ c ds, int = c :: ds ∧ c ≠ 48 ∧ Digits int) : int ≠ [] ∧ Digits int := by
  rcases hi with rfl | ⟨c, ds, rfl, -, hd⟩
  · exact ⟨by simp, by intro c hc; cases List.mem_singleton.1 hc; decide⟩
  · exact ⟨by simp, hd⟩

theorem decimal_parse {t : Bytes} {neg : Bool} {D : Nat} {E : Int} (h : Decimal t neg D E) :
    parseF64 t = if (pairOf D E).2 ≤ 2045 then some ⟨neg, (pairOf D E).1, (pairOf D E).2⟩ else none := by
  obtain ⟨int, frac, fd, exp, x, rfl, hi, hf, he, hD, rfl⟩ := h
  obtain ⟨he1, he2⟩ := power_shape he
  unfold parseF64
  rw [scan_parts hi hf he1]
  exact toF64_pair ⟨neg, int, fd, exp⟩ (decimal_iff.1 hD).2.2.symm (by rw [← he2])

theorem number_decimal {t : Bytes} (h : NumberText t) : ∃ neg D E, Decimal t neg D E := by
  obtain ⟨sign, int, frac, exp, rfl, hs, hi, hf, he⟩ := h
  have hx := shape_power he
  have hfd : ∃ fd, FractionText frac fd ∧ Digits fd := by
    rcases hf with rfl | ⟨ds, rfl, hne, hd⟩
    · exact ⟨[], .none, by intro c hc; cases hc⟩
    · exact ⟨ds, .point hne hd, hd⟩
  obtain ⟨fd, hfd, hd⟩ := hfd
  obtain ⟨hne, hid⟩ := int_digits hi
  have hp : Places DecDigit 10 (int ++ fd) (digitsVal (int ++ fd)) := by
    refine decimal_iff.2 ⟨by simp [hne], ?_, rfl⟩
    intro c hc
    rcases List.mem_append.1 hc with hc | hc
    · exact digits_iff.1 hid c hc
    · exact digits_iff.1 hd c hc
  rcases hs with rfl | rfl
  · exact ⟨false, _, _, int, frac, fd, exp, _, rfl, hi, hfd, hx, hp, rfl⟩
  · exact ⟨true, _, _, int, frac, fd, exp, _, rfl, hi, hfd, hx, hp, rfl⟩

theorem decimal_number {t : Bytes} {neg : Bool} {D : Nat} {E : Int} (h : Decimal t neg D E) : NumberText t := by
  obtain ⟨int, frac, fd, exp, x, rfl, hi, hf, he, -, -⟩ := h
  rw [numberText_iff, numValid_iff]
  exact ⟨_, scan_parts hi hf (power_shape he).1⟩

theorem parse_number {t : Bytes} {f : F64} (h : parseF64 t = some f) : NumberText t := by
  rw [numberText_iff, numValid_iff]
  unfold parseF64 at h
  split at h
  · rename_i p hp
    exact ⟨p, hp⟩
  · cases h

theorem decimal_near {t : Bytes} {neg : Bool} {D : Nat} {E : Int} (h : Decimal t neg D E) :
    ∃ m k, Nearest D E m k ∧ parseF64 t = if k ≤ 2045 then some ⟨neg, m, k⟩ else none :=
  ⟨_, _, pairOf_nearest D E, decimal_parse h⟩

theorem double_iff {t : Bytes} {f : F64} : parseF64 t = some f ↔ DoubleOf t f.neg f.m f.k := by
  constructor
  · intro h
    obtain ⟨neg, D, E, hd⟩ := number_decimal (parse_number h)
    obtain ⟨m, k, hn, hp⟩ := decimal_near hd
    rw [h] at hp
    split at hp
    · rename_i hk
      cases hp
      exact ⟨D, E, hd, hn, hk⟩
    · cases hp
  · rintro ⟨D, E, hd, hn, hk⟩
    obtain ⟨m, k, hn', hp⟩ := decimal_near hd
    obtain ⟨rfl, rfl⟩ := nearest_unique hn hn'
    rw [if_pos hk] at hp
    exact hp

theorem tooLarge_iff {t : Bytes} : NumberText t ∧ parseF64 t = none ↔ TooLarge t := by
  constructor
  · rintro ⟨ht, h⟩
    obtain ⟨neg, D, E, hd⟩ := number_decimal ht
    obtain ⟨m, k, hn, hp⟩ := decimal_near hd
    rw [h] at hp
    split at hp
    · cases hp
    · rename_i hk
      exact ⟨neg, D, E, m, k, hd, hn, by omega⟩
  · rintro ⟨neg, D, E, m, k, hd, hn, hk⟩
    obtain ⟨m', k', hn', hp⟩ := decimal_near hd
    obtain ⟨rfl, rfl⟩ := nearest_unique hn hn'
    rw [if_neg (by omega)] at hp
    exact ⟨decimal_number hd, hp⟩

theorem sameDouble_iff {t t' : Bytes} : SameDouble t t' ↔ ∃ f, parseF64 t = some f ∧ parseF64 t' = some f := by
  constructor
  · rintro ⟨neg, m, k, h1, h2⟩
    exact ⟨⟨neg, m, k⟩, double_iff.2 h1, double_iff.2 h2⟩
  · rintro ⟨f, h1, h2⟩
    exact ⟨f.neg, f.m, f.k, double_iff.1 h1, double_iff.1 h2⟩

end Verif
