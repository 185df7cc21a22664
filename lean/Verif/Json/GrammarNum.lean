/- Numbers are read by the grammar of JSON (used in C84). -/
import Verif.Json.RoundTrip
import Verif.Json.Prefix
import Verif.Spec.Grammar

namespace Verif
open Spec

/-! ### numbers -/

theorem isDigit_iff {c : UInt8} : isDigit c = true ↔ 48 ≤ c.toNat ∧ c.toNat ≤ 57 := by
  unfold isDigit
  simp [UInt8.le_iff_toNat_le]

theorem digits_iff {t : Bytes} : Digits t ↔ ∀ c ∈ t, isDigit c = true := by
  unfold Digits
  simp only [isDigit_iff]

theorem digits_takeWhile (s : Bytes) : Digits (s.takeWhile isDigit) := by
  rw [digits_iff]
  induction s with
  | nil => intro c hc; cases hc
  | cons x s ih =>
    intro c hc
    rw [List.takeWhile_cons] at hc
    split at hc
    · rcases List.mem_cons.1 hc with rfl | hc
      · assumption
      · exact ih c hc
    · cases hc

theorem takeWhile_digits {ds r : Bytes} (h : Digits ds) (hr : ∀ c ∈ r.head?, isDigit c = false) :
    (ds ++ r).takeWhile isDigit = ds ∧ (ds ++ r).dropWhile isDigit = r := by
  rw [digits_iff] at h
  induction ds with
  | nil =>
    cases r with
    | nil => exact ⟨rfl, rfl⟩
    | cons c r =>
      have := hr c rfl
      simp [this]
  | cons x ds ih =>
    have hx := h x (List.mem_cons_self ..)
    have := ih fun c hc => h c (List.mem_cons_of_mem _ hc)
    simp [hx, this]

theorem scanInt_sound {s ip r : Bytes} (h : scanInt s = some (ip, r)) : ip = [48] ∨ ∃ c ds, ip = c :: ds ∧ c ≠ 48 ∧ Digits ip := by
  cases s with
  | nil => cases h
  | cons c s =>
    simp only [scanInt] at h
    split at h
    · cases h; exact .inl rfl
    · rename_i hc
      split at h
      · rename_i hd
        simp only [Option.some.injEq, Prod.mk.injEq] at h
        obtain ⟨rfl, -⟩ := h
        exact .inr ⟨c, s.takeWhile isDigit, by simp [hd], hc, digits_takeWhile _⟩
      · cases h

theorem scanFrac_sound {s fp r : Bytes} (h : scanFrac s = some (fp, r)) : Digits fp := by
  cases s with
  | nil => cases h; intro c hc; cases hc
  | cons c s =>
    simp only [scanFrac] at h
    split at h
    · split at h
      · cases h
      · simp only [Option.some.injEq, Prod.mk.injEq] at h
        obtain ⟨rfl, -⟩ := h
        exact digits_takeWhile _
    · cases h; intro c hc; cases hc

theorem scanExp_sound {s ex r : Bytes} (h : scanExp s = some (ex, r)) :
    ex = [] ∨ ∃ e g ds, ex = e :: (g ++ ds) ∧ (e = 101 ∨ e = 69) ∧ (g = [] ∨ g = [43] ∨ g = [45]) ∧ ds ≠ [] ∧ Digits ds := by
  cases s with
  | nil => cases h; exact .inl rfl
  | cons c s =>
    simp only [scanExp] at h
    split at h
    · rename_i hc
      have hc : c = 101 ∨ c = 69 := by simpa using hc
      right
      cases s with
      | nil => cases h
      | cons d s =>
        simp only at h
        split at h
        · rename_i hd
          have hd : d = 43 ∨ d = 45 := by simpa using hd
          split at h
          · cases h
          · rename_i hne
            simp only [Option.some.injEq, Prod.mk.injEq] at h
            obtain ⟨rfl, -⟩ := h
            refine ⟨c, [d], _, rfl, hc, ?_, hne, digits_takeWhile _⟩
            rcases hd with rfl | rfl
            · exact .inr (.inl rfl)
            · exact .inr (.inr rfl)
        · split at h
          · cases h
          · rename_i hne
            simp only [Option.some.injEq, Prod.mk.injEq] at h
            obtain ⟨rfl, -⟩ := h
            exact ⟨c, [], (d :: s).takeWhile isDigit, rfl, hc, .inl rfl, hne, digits_takeWhile (d :: s)⟩
    · cases h; exact .inl rfl

theorem scanAbs_sound {neg : Bool} {s r : Bytes} {p : NumParts} (h : scanAbs neg s = some (p, r)) : NumberText p.lit := by
  unfold scanAbs at h
  split at h
  · cases h
  rename_i ip s1 h1
  split at h
  · cases h
  rename_i fp s2 h2
  split at h
  · cases h
  rename_i ex s3 h3
  simp only [Option.some.injEq, Prod.mk.injEq] at h
  obtain ⟨rfl, -⟩ := h
  refine ⟨_, _, _, _, rfl, ?_, scanInt_sound h1, ?_, scanExp_sound h3⟩
  · cases neg
    · exact .inl rfl
    · exact .inr rfl
  · by_cases hf : fp = []
    · exact .inl (by simp [hf])
    · exact .inr ⟨fp, by simp [hf], hf, scanFrac_sound h2⟩

theorem scanNum_sound {s r : Bytes} {p : NumParts} (h : scanNum s = some (p, r)) : NumberText p.lit := by
  cases s with
  | nil => cases h
  | cons c s =>
    simp only [scanNum] at h
    split at h <;> exact scanAbs_sound h

theorem scanExp_complete {exp : Bytes}
    (h : exp = [] ∨ ∃ e g ds, exp = e :: (g ++ ds) ∧ (e = 101 ∨ e = 69) ∧ (g = [] ∨ g = [43] ∨ g = [45]) ∧ ds ≠ [] ∧ Digits ds) :
    scanExp exp = some (exp, []) := by
  rcases h with rfl | ⟨e, g, ds, rfl, he, hg, hne, hd⟩
  · rfl
  have hw := takeWhile_digits (r := []) hd (by simp)
  rw [List.append_nil] at hw
  have he' : (e = 101 || e = 69) = true := by rcases he with rfl | rfl <;> rfl
  obtain ⟨x, ds', rfl⟩ := List.exists_cons_of_ne_nil hne
  have hx : isDigit x = true := digits_iff.1 hd x (List.mem_cons_self ..)
  rcases hg with rfl | rfl | rfl
  · have hx' : (x = 43 || x = 45) = false := by
      have := isDigit_iff.1 hx
      simp only [Bool.or_eq_false_iff, decide_eq_false_iff_not]
      constructor <;> (rintro rfl; revert this; decide)
    simp only [scanExp, List.nil_append, he', if_true, hx', Bool.false_eq_true, if_false, hw, if_neg hne]
  · simp [scanExp, he', hw]
  · simp [scanExp, he', hw]

theorem exp_head {exp : Bytes}
    (h : exp = [] ∨ ∃ e g ds, exp = e :: (g ++ ds) ∧ (e = 101 ∨ e = 69) ∧ (g = [] ∨ g = [43] ∨ g = [45]) ∧ ds ≠ [] ∧ Digits ds) :
    ∀ c ∈ exp.head?, isDigit c = false ∧ c ≠ 46 := by
  rcases h with rfl | ⟨e, g, ds, rfl, he, -⟩
  · intro c hc; cases hc
  · intro c hc
    cases hc
    rcases he with rfl | rfl <;> decide

theorem number_scan {t : Bytes} (h : NumberText t) : ∃ p, scanNum t = some (p, []) := by
  obtain ⟨sign, int, frac, exp, rfl, hs, hi, hf, he⟩ := h
  have hexp := scanExp_complete he
  have hfrac : ∃ fp, scanFrac (frac ++ exp) = some (fp, exp) := by
    rcases hf with rfl | ⟨ds, rfl, hne, hd⟩
    · refine ⟨[], ?_⟩
      cases exp with
      | nil => rfl
      | cons c r =>
        have := (exp_head he c rfl).2
        simp [scanFrac, this]
    · have := takeWhile_digits hd fun c hc => (exp_head he c hc).1
      refine ⟨ds, ?_⟩
      simp [scanFrac, this, hne]
  have hnd : ∀ c ∈ (frac ++ exp).head?, isDigit c = false := by
    rcases hf with rfl | ⟨ds, rfl, -⟩
    · exact fun c hc => (exp_head he c hc).1
    · intro c hc
      cases hc
      decide
  obtain ⟨fp, hfrac⟩ := hfrac
  have hint : scanInt (int ++ (frac ++ exp)) = some (int, frac ++ exp) := by
    rcases hi with rfl | ⟨c, ds, rfl, h0, hd⟩
    · rfl
    · have hc : isDigit c = true := digits_iff.1 hd c (List.mem_cons_self ..)
      have := takeWhile_digits hd hnd
      simp only [List.cons_append] at this
      simp [scanInt, h0, hc, this]
  have habs : ∀ neg, scanAbs neg (int ++ (frac ++ exp)) = some (⟨neg, int, fp, exp⟩, []) := by
    intro neg
    simp only [scanAbs, hint, hfrac, hexp]
  rcases hs with rfl | rfl
  · have hne : ∃ c r, int ++ (frac ++ exp) = c :: r ∧ c ≠ 45 := by
      rcases hi with rfl | ⟨c, ds, rfl, -, hd⟩
      · exact ⟨48, _, rfl, by decide⟩
      · refine ⟨c, _, rfl, ?_⟩
        rintro rfl
        have := digits_iff.1 hd 45 (List.mem_cons_self ..)
        revert this
        decide
    obtain ⟨c, r, hcr, hc⟩ := hne
    refine ⟨⟨false, int, fp, exp⟩, ?_⟩
    simp only [List.nil_append, List.append_assoc]
    rw [hcr]
    simp only [scanNum, if_neg hc]
    rw [← hcr]
    exact habs false
  · refine ⟨⟨true, int, fp, exp⟩, ?_⟩
    simp only [List.append_assoc, List.singleton_append, scanNum]
    exact habs true

theorem numberText_iff {t : Bytes} : NumberText t ↔ numValid t = true := by
  rw [numValid_iff]
  refine ⟨number_scan, ?_⟩
  rintro ⟨p, hp⟩
  have := scanNum_lit hp
  rw [List.append_nil] at this
  rw [this]
  exact scanNum_sound hp

end Verif
