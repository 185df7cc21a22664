/- Lemmas about the byte-string functions of `Verif.Base.Bytes`. -/
import Verif.Base.Bytes

namespace Verif

theorem Bytes.lt_irrefl (a : Bytes) : Bytes.lt a a = false := by
  induction a with
  | nil => rfl
  | cons x xs ih => simp [Bytes.lt, ih]

theorem Bytes.lt_trans {a b c : Bytes} (h1 : Bytes.lt a b = true) (h2 : Bytes.lt b c = true) :
    Bytes.lt a c = true := by
  induction a generalizing b c with
  | nil =>
    cases b with
    | nil => simp [Bytes.lt] at h1
    | cons y ys => cases c with
      | nil => simp [Bytes.lt] at h2
      | cons z zs => rfl
  | cons x xs ih =>
    cases b with
    | nil => simp [Bytes.lt] at h1
    | cons y ys => cases c with
      | nil => simp [Bytes.lt] at h2
      | cons z zs =>
        simp only [Bytes.lt] at *
        split at h1
        · rename_i hxy
          split at h2
          · rename_i hyz
            have : x < z := by
              simp only [UInt8.lt_iff_toNat_lt] at *; omega
            simp [this]
          · split at h2
            · subst_vars; simp_all
            · simp at h2
        · split at h1
          · subst_vars
            split at h2
            · rename_i h; simp [h]
            · split at h2
              · subst_vars
                simp_all
                exact ih h1 h2
              · simp at h2
          · simp at h1

theorem Bytes.lt_asymm {a b : Bytes} (h : Bytes.lt a b = true) : Bytes.lt b a = false := by
  cases hb : Bytes.lt b a with
  | false => rfl
  | true => have := Bytes.lt_trans h hb; rw [Bytes.lt_irrefl] at this; simp at this

theorem Bytes.lt_trichotomy (a b : Bytes) : Bytes.lt a b = true ∨ a = b ∨ Bytes.lt b a = true := by
  induction a generalizing b with
  | nil => cases b <;> simp [Bytes.lt]
  | cons x xs ih =>
    cases b with
    | nil => simp [Bytes.lt]
    | cons y ys =>
      simp only [Bytes.lt]
      by_cases h1 : x < y
      · simp [h1]
      · by_cases h2 : x = y
        · subst h2
          simp only [UInt8.lt_irrefl, if_false, if_true, List.cons.injEq, true_and]
          exact ih ys
        · have h3 : y < x := by
            have : x.toNat ≠ y.toNat := fun h => h2 (UInt8.toNat_inj.mp h)
            simp only [UInt8.lt_iff_toNat_lt] at *; omega
          simp [h3]

theorem Bytes.lt_ne {a b : Bytes} (h : Bytes.lt a b = true) : a ≠ b := by
  intro e; subst e; rw [Bytes.lt_irrefl] at h; simp at h

/-! ### split / join -/

theorem splitOn_ne_nil (sep : UInt8) (s : Bytes) : splitOn sep s ≠ [] := by
  cases s with
  | nil => simp [splitOn]
  | cons c cs =>
    simp only [splitOn]
    split
    · simp
    · split <;> simp

/-- A string without the separator is one piece. -/
theorem splitOn_of_not_mem (sep : UInt8) (s : Bytes) (h : sep ∉ s) : splitOn sep s = [s] := by
  induction s with
  | nil => rfl
  | cons c cs ih =>
    have h1 : c ≠ sep := fun e => h (by simp [e])
    have h2 : sep ∉ cs := fun e => h (by simp [e])
    simp [splitOn, h1, ih h2]

theorem splitOn_append_sep (sep : UInt8) (s t : Bytes) (h : sep ∉ s) :
    splitOn sep (s ++ sep :: t) = s :: splitOn sep t := by
  induction s with
  | nil => simp [splitOn]
  | cons c cs ih =>
    have h1 : c ≠ sep := fun e => h (by simp [e])
    have h2 : sep ∉ cs := fun e => h (by simp [e])
    simp [splitOn, h1, ih h2]

theorem splitOn_joinWith (sep : UInt8) (ps : List Bytes) (hne : ps ≠ []) (h : ∀ p ∈ ps, sep ∉ p) :
    splitOn sep (joinWith [sep] ps) = ps := by
  induction ps with
  | nil => exact absurd rfl hne
  | cons p ps ih =>
    cases ps with
    | nil => simpa [joinWith] using splitOn_of_not_mem sep p (h p (by simp))
    | cons q qs =>
      have hp := h p (by simp)
      have := ih (by simp) (fun x hx => h x (by simp [hx]))
      simp only [joinWith, List.append_assoc, List.singleton_append]
      rw [splitOn_append_sep sep p _ hp, this]

theorem joinWith_splitOn (sep : UInt8) (s : Bytes) : joinWith [sep] (splitOn sep s) = s := by
  induction s with
  | nil => rfl
  | cons c cs ih =>
    simp only [splitOn]
    split
    · rename_i h; subst h
      cases hs : splitOn c cs with
      | nil => exact absurd hs (splitOn_ne_nil _ _)
      | cons p ps => rw [hs] at ih; simp [joinWith, ih]
    · cases hs : splitOn sep cs with
      | nil => exact absurd hs (splitOn_ne_nil _ _)
      | cons p ps =>
        rw [hs] at ih
        cases ps with
        | nil => simp [joinWith] at *; exact ih
        | cons q qs => simp [joinWith] at *; exact ih

theorem splitOn_pieces_no_sep (sep : UInt8) (s : Bytes) : ∀ p ∈ splitOn sep s, sep ∉ p := by
  induction s with
  | nil => simp [splitOn]
  | cons c cs ih =>
    simp only [splitOn]
    split
    · intro p hp
      simp at hp
      rcases hp with rfl | hp
      · simp
      · exact ih p hp
    · rename_i hne
      cases hs : splitOn sep cs with
      | nil => exact absurd hs (splitOn_ne_nil _ _)
      | cons q qs =>
        rw [hs] at ih
        intro p hp
        simp at hp
        rcases hp with rfl | hp
        · have := ih q (by simp)
          simp [this, Ne.symm hne]
        · exact ih p (by simp [hp])

/-! ### prefixes and substrings -/

theorem hasPrefix_iff (s p : Bytes) : hasPrefix s p = true ↔ ∃ t, s = p ++ t := by
  induction p generalizing s with
  | nil => simp [hasPrefix]
  | cons a ps ih =>
    cases s with
    | nil => simp [hasPrefix]
    | cons c cs =>
      simp only [hasPrefix, Bool.and_eq_true, beq_iff_eq, ih, List.cons_append, List.cons.injEq]
      constructor
      · rintro ⟨rfl, t, rfl⟩; exact ⟨t, rfl, rfl⟩
      · rintro ⟨t, rfl, rfl⟩; exact ⟨rfl, t, rfl⟩

theorem hasPrefix_append (p t : Bytes) : hasPrefix (p ++ t) p = true :=
  (hasPrefix_iff _ _).2 ⟨t, rfl⟩

/-- `strings.Index` finds an occurrence. -/
theorem indexOf_some {sub s : Bytes} {i : Nat} (h : indexOf sub s = some i) :
    ∃ pre post, s = pre ++ sub ++ post ∧ pre.length = i := by
  induction s generalizing i with
  | nil =>
    simp only [indexOf] at h
    split at h
    · simp at h; subst_vars; exact ⟨[], [], by simp⟩
    · simp at h
  | cons c cs ih =>
    simp only [indexOf] at h
    split at h
    · rename_i hp
      obtain ⟨t, ht⟩ := (hasPrefix_iff _ _).1 hp
      simp at h; subst h
      exact ⟨[], t, by simpa using ht, rfl⟩
    · cases hi : indexOf sub cs with
      | none => simp [hi] at h
      | some j =>
        simp [hi] at h; subst h
        obtain ⟨pre, post, e, l⟩ := ih hi
        exact ⟨c :: pre, post, by simp [e], by simp [l]⟩

/-- ... and it is the first one. -/
theorem indexOf_le {sub pre post : Bytes} : ∃ i, indexOf sub (pre ++ sub ++ post) = some i ∧ i ≤ pre.length := by
  induction pre with
  | nil =>
    cases hs : (sub ++ post) with
    | nil =>
      have : sub = [] := by simp at hs; exact hs.1
      exact ⟨0, by simp [this] at *; simp [hs, indexOf], by simp⟩
    | cons c cs =>
      refine ⟨0, ?_, by simp⟩
      have : hasPrefix (c :: cs) sub = true := by rw [← hs]; exact hasPrefix_append _ _
      simp [hs, indexOf, this]
  | cons c cs ih =>
    obtain ⟨i, hi, hl⟩ := ih
    simp only [List.cons_append, indexOf]
    split
    · exact ⟨0, rfl, by simp⟩
    · exact ⟨i + 1, by rw [hi]; simp, by simp; omega⟩

/-! ### decimal digits -/

theorem UInt8.toNat_ofNat_lt {n : Nat} (h : n < 256) : (UInt8.ofNat n).toNat = n := by
  simp [UInt8.toNat_ofNat', Nat.mod_eq_of_lt h]

theorem isDigit_ofNat {d : Nat} (h : d < 10) : isDigit (UInt8.ofNat (48 + d)) = true := by
  have : d = 0 ∨ d = 1 ∨ d = 2 ∨ d = 3 ∨ d = 4 ∨ d = 5 ∨ d = 6 ∨ d = 7 ∨ d = 8 ∨ d = 9 := by omega
  rcases this with h | h | h | h | h | h | h | h | h | h <;> subst h <;> decide

theorem natDigitsF_digits (f n : Nat) : ∀ c ∈ natDigitsF f n, isDigit c = true := by
  induction f generalizing n with
  | zero => intro c hc; simp only [natDigitsF, List.mem_singleton] at hc; subst hc; exact isDigit_ofNat (Nat.mod_lt _ (by omega))
  | succ f ih =>
    intro c hc
    simp only [natDigitsF] at hc
    split at hc
    · simp only [List.mem_singleton] at hc; subst hc; apply isDigit_ofNat; assumption
    · simp only [List.mem_append, List.mem_singleton] at hc
      rcases hc with hc | hc
      · exact ih _ c hc
      · subst hc; exact isDigit_ofNat (Nat.mod_lt _ (by omega))

theorem natDigits_digits (n : Nat) : ∀ c ∈ natDigits n, isDigit c = true := natDigitsF_digits n n

theorem natDigitsF_ne_nil (f n : Nat) : natDigitsF f n ≠ [] := by
  cases f <;> simp [natDigitsF]; split <;> simp

theorem natDigits_ne_nil (n : Nat) : natDigits n ≠ [] := natDigitsF_ne_nil n n

theorem digitsVal_append_one (s : Bytes) (c : UInt8) :
    digitsVal (s ++ [c]) = digitsVal s * 10 + (c.toNat - 48) := by
  simp [digitsVal, List.foldl_append]

theorem digitsVal_natDigitsF (f n : Nat) (h : n ≤ f) : digitsVal (natDigitsF f n) = n := by
  induction f generalizing n with
  | zero => have : n = 0 := by omega
            subst this; decide
  | succ f ih =>
    simp only [natDigitsF]
    split
    · simp only [digitsVal, List.foldl_cons, List.foldl_nil]
      rw [UInt8.toNat_ofNat_lt (by omega)]; omega
    · rw [digitsVal_append_one, ih _ (by omega), UInt8.toNat_ofNat_lt (by omega)]
      omega

@[simp] theorem digitsVal_natDigits (n : Nat) : digitsVal (natDigits n) = n :=
  digitsVal_natDigitsF n n (Nat.le_refl _)

/-- Enough fuel: the digit string does not depend on it. -/
theorem natDigitsF_fuel (f g n : Nat) (hf : n ≤ f) (hg : n ≤ g) : natDigitsF f n = natDigitsF g n := by
  induction f generalizing g n with
  | zero =>
    have : n = 0 := by omega
    subst this
    cases g <;> simp [natDigitsF]
  | succ f ih =>
    cases g with
    | zero => have : n = 0 := by omega
              subst this; simp [natDigitsF]
    | succ g =>
      simp only [natDigitsF]
      split
      · rfl
      · rw [ih g (n / 10) (by omega) (by omega)]

theorem natDigits_lt_ten {n : Nat} (h : n < 10) : natDigits n = [UInt8.ofNat (48 + n)] := by
  unfold natDigits
  cases n with
  | zero => rfl
  | succ n => simp [natDigitsF, h]

theorem natDigits_ge_ten {n : Nat} (h : 10 ≤ n) :
    natDigits n = natDigits (n / 10) ++ [UInt8.ofNat (48 + n % 10)] := by
  unfold natDigits
  cases n with
  | zero => omega
  | succ n =>
    have hn : ¬ (n + 1 < 10) := by omega
    simp only [natDigitsF, hn, if_false]
    rw [natDigitsF_fuel n ((n+1)/10) ((n+1)/10) (by omega) (by omega)]

/-- No leading zero except for zero itself. -/
theorem natDigits_head (n : Nat) (h : 0 < n) : ∃ c t, natDigits n = c :: t ∧ c ≠ 48 ∧ isDigit c = true := by
  induction n using Nat.strongRecOn with
  | ind n ih =>
    by_cases h10 : n < 10
    · refine ⟨_, [], natDigits_lt_ten h10, ?_, isDigit_ofNat h10⟩
      have : n = 1 ∨ n = 2 ∨ n = 3 ∨ n = 4 ∨ n = 5 ∨ n = 6 ∨ n = 7 ∨ n = 8 ∨ n = 9 := by omega
      rcases this with h | h | h | h | h | h | h | h | h <;> subst h <;> decide
    · obtain ⟨c, t, e, h1, h2⟩ := ih (n / 10) (by omega) (by omega)
      exact ⟨c, t ++ _, by rw [natDigits_ge_ten (by omega), e]; rfl, h1, h2⟩

/-- Induction from the end of a list. -/
theorem list_snoc_induction {α : Type} {motive : List α → Prop} (nil : motive [])
    (snoc : ∀ l a, motive l → motive (l ++ [a])) (l : List α) : motive l := by
  have : ∀ l : List α, motive l.reverse := by
    intro l
    induction l with
    | nil => exact nil
    | cons a l ih => rw [List.reverse_cons]; exact snoc _ _ ih
  have h := this l.reverse
  rwa [List.reverse_reverse] at h

end Verif
