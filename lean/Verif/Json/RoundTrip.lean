/- Printing and re-parsing a JSON document gives it back. -/
import Verif.Json.Json

namespace Verif
set_option linter.unusedSimpArgs false

/-! ### UTF-8 -/

theorem runeLen_le (s : Bytes) : runeLen s ≤ s.length := by
  unfold runeLen
  repeat' split
  all_goals simp

theorem runeLen_pos_of_ascii {c : UInt8} {r : Bytes} (h : c < 0x80) : runeLen (c :: r) = 1 := by
  simp [runeLen, h]

theorem sanitizeF_of_isUtf8F (n : Nat) (s : Bytes) (h : isUtf8F n s = true) : sanitizeF n s = s := by
  induction n generalizing s with
  | zero => cases s <;> simp_all [isUtf8F, sanitizeF]
  | succ n ih =>
    cases s with
    | nil => rfl
    | cons b r =>
      simp only [isUtf8F, sanitizeF] at *
      split at h
      · simp at h
      · rename_i k hk
        rw [ih _ h]; exact List.take_append_drop _ _

theorem sanitize_of_isUtf8 {s : Bytes} (h : isUtf8 s = true) : sanitize s = s :=
  sanitizeF_of_isUtf8F _ _ h

theorem isUtf8F_mono (n m : Nat) (s : Bytes) (hn : s.length ≤ n) (hm : s.length ≤ m) :
    isUtf8F n s = isUtf8F m s := by
  induction n generalizing m s with
  | zero => cases s with
    | nil => simp [isUtf8F]
    | cons _ _ => simp at hn
  | succ n ih =>
    cases s with
    | nil => simp [isUtf8F]
    | cons b r =>
      cases m with
      | zero => simp at hm
      | succ m =>
        simp only [isUtf8F]
        split
        · rfl
        · rename_i k hk
          apply ih
          · have : (0 : Nat) < runeLen (b :: r) := Nat.pos_of_ne_zero (by simpa using hk)
            simp at *; omega
          · have : (0 : Nat) < runeLen (b :: r) := Nat.pos_of_ne_zero (by simpa using hk)
            simp at *; omega

theorem runeLen_cases (s : Bytes) : runeLen s = 0 ∨ runeLen s = 1 ∨ runeLen s = 2 ∨ runeLen s = 3 ∨ runeLen s = 4 := by
  unfold runeLen
  repeat' split
  all_goals simp

/-- The head rune does not look past its own length. -/
theorem runeLen_take_append (s t : Bytes) (h : runeLen s ≠ 0) :
    runeLen (s.take (runeLen s) ++ t) = runeLen s := by
  rcases s with _ | ⟨a, r⟩
  · simp [runeLen] at h
  by_cases h1 : a < 0x80
  · simp [runeLen, h1]
  rcases r with _ | ⟨b, r⟩
  · simp [runeLen, h1] at h
  by_cases h2 : (0xC2 ≤ a && a ≤ 0xDF) = true
  · by_cases hb : isCont b = true
    · have hk : ∀ x : Bytes, runeLen (a :: b :: x) = 2 := by
        intro x; simp only [runeLen, h1, h2, hb, if_true, if_false]
      rw [hk]; exact hk _
    · simp only [runeLen, h1, h2, hb, if_true, if_false] at h; simp at h
  rcases r with _ | ⟨c, r⟩
  · simp only [runeLen, h1, h2, if_false] at h; simp at h
  by_cases h3 : (0xE0 ≤ a && a ≤ 0xEF) = true
  · by_cases hb : (isCont b && isCont c && !(a == 0xE0 && b < 0xA0) && !(a == 0xED && 0xA0 ≤ b)) = true
    · have hk : ∀ x : Bytes, runeLen (a :: b :: c :: x) = 3 := by
        intro x; simp only [runeLen, h1, h2, h3, if_true, if_false, Bool.false_eq_true]; rw [if_pos hb]
      rw [hk]; exact hk _
    · simp only [runeLen, h1, h2, h3, if_true, if_false, Bool.false_eq_true] at h; rw [if_neg hb] at h; simp at h
  rcases r with _ | ⟨d, r⟩
  · simp only [runeLen, h1, h2, h3, if_false] at h; simp at h
  by_cases h4 : (0xF0 ≤ a && a ≤ 0xF4) = true
  · by_cases hb : (isCont b && isCont c && isCont d && !(a == 0xF0 && b < 0x90)
                      && !(a == 0xF4 && 0x90 ≤ b)) = true
    · have hk : ∀ x : Bytes, runeLen (a :: b :: c :: d :: x) = 4 := by
        intro x; simp only [runeLen, h1, h2, h3, h4, if_true, if_false, Bool.false_eq_true]; rw [if_pos hb]
      rw [hk]; exact hk _
    · simp only [runeLen, h1, h2, h3, h4, if_true, if_false, Bool.false_eq_true] at h; rw [if_neg hb] at h; simp at h
  · simp only [runeLen, h1, h2, h3, h4, if_false] at h; simp at h

theorem isUtf8F_append_rune (n : Nat) (p t : Bytes) (hp : runeLen p = p.length) (hne : p ≠ []) :
    isUtf8F (n + 1) (p ++ t) = isUtf8F n t := by
  cases p with
  | nil => exact absurd rfl hne
  | cons b r =>
    have h0 : runeLen (b :: r) ≠ 0 := by rw [hp]; simp
    have := runeLen_take_append (b :: r) t h0
    rw [hp] at this
    simp only [List.take_length] at this
    simp only [List.cons_append] at *
    simp only [isUtf8F]
    rw [this]
    simp

theorem runeLen_take_self (s : Bytes) (h : runeLen s ≠ 0) :
    runeLen (s.take (runeLen s)) = (s.take (runeLen s)).length := by
  have := runeLen_take_append s [] h
  simp only [List.append_nil] at this
  rw [this]
  have := runeLen_le s
  simp; omega

theorem isUtf8F_sanitizeF (n : Nat) (s : Bytes) (hn : s.length ≤ n) :
    ∀ m, (sanitizeF n s).length ≤ m → isUtf8F m (sanitizeF n s) = true := by
  induction n generalizing s with
  | zero => cases s with
    | nil => simp [sanitizeF, isUtf8F]
    | cons _ _ => simp at hn
  | succ n ih =>
    cases s with
    | nil => simp [sanitizeF, isUtf8F]
    | cons b r =>
      intro m hm
      simp only [sanitizeF] at *
      split at hm
      · rename_i h0
        have e : (0xEF :: 0xBF :: 0xBD :: sanitizeF n r : Bytes) = [0xEF, 0xBF, 0xBD] ++ sanitizeF n r := rfl
        cases m with
        | zero => simp at hm
        | succ m =>
          rw [e, isUtf8F_append_rune m _ _ (by decide) (by simp)]
          exact ih r (by simpa using hn) m (by simp at hm; omega)
      · rename_i k hk
        have hpos : 0 < runeLen (b :: r) := Nat.pos_of_ne_zero (by simpa using hk)
        have hle := runeLen_le (b :: r)
        cases m with
        | zero => rw [List.length_append, List.length_take] at hm; omega
        | succ m =>
          have h0 : runeLen (b :: r) ≠ 0 := by omega
          rw [isUtf8F_append_rune m _ _ (runeLen_take_self _ h0) (by
            intro h; have := congrArg List.length h; simp at this; omega)]
          apply ih
          · simp at *; omega
          · rw [List.length_append, List.length_take] at hm; omega

theorem isUtf8_sanitize (s : Bytes) : isUtf8 (sanitize s) = true :=
  isUtf8F_sanitizeF _ s (Nat.le_refl _) _ (Nat.le_refl _)

@[simp] theorem sanitize_sanitize (s : Bytes) : sanitize (sanitize s) = sanitize s :=
  sanitize_of_isUtf8 (isUtf8_sanitize s)

/-- ASCII strings are UTF-8. -/
theorem isUtf8_of_ascii {s : Bytes} (h : ∀ c ∈ s, c < 0x80) : isUtf8 s = true := by
  unfold isUtf8
  induction s with
  | nil => rfl
  | cons c s ih =>
    have h1 : c < 0x80 := h c (by simp)
    simp only [List.length_cons, isUtf8F, runeLen_pos_of_ascii h1]
    exact ih (fun x hx => h x (by simp [hx]))

/-! ### strings -/

theorem hexVal_hexDigit {n : Nat} (h : n < 16) : hexVal (hexDigit n) = some n := by
  have : n = 0 ∨ n = 1 ∨ n = 2 ∨ n = 3 ∨ n = 4 ∨ n = 5 ∨ n = 6 ∨ n = 7 ∨ n = 8 ∨ n = 9 ∨ n = 10 ∨ n = 11
    ∨ n = 12 ∨ n = 13 ∨ n = 14 ∨ n = 15 := by omega
  rcases this with h | h | h | h | h | h | h | h | h | h | h | h | h | h | h | h <;> subst h <;> decide

theorem parseStrF_escByte (n : Nat) (c : UInt8) (t : Bytes) :
    parseStrF (n + 1) (escByte c ++ t) = (parseStrF n t).map fun p => (c :: p.1, p.2) := by
  unfold escByte
  split
  · rename_i h; subst h; simp [parseStrF, unesc]
  split
  · rename_i h; subst h; simp [parseStrF, unesc]
  split
  · rename_i h; subst h; simp [parseStrF, unesc]
  split
  · rename_i h; subst h; simp [parseStrF, unesc]
  split
  · rename_i h; subst h; simp [parseStrF, unesc]
  split
  · rename_i h; subst h; simp [parseStrF, unesc]
  split
  · rename_i h; subst h; simp [parseStrF, unesc]
  split
  · rename_i h
    have hc : c.toNat < 128 := by
      simp only [Bool.or_eq_true, decide_eq_true_eq] at h
      rcases h with ((h | h) | h) | h
      · rw [UInt8.lt_iff_toNat_lt] at h; have : (0x20 : UInt8).toNat = 32 := rfl; omega
      · subst h; decide
      · subst h; decide
      · subst h; decide
    have h1 : c.toNat / 16 < 16 := by omega
    have h2 : c.toNat % 16 < 16 := by omega
    have h0 : hexVal 0x30 = some 0 := by decide
    have hv : ((0 * 16 + 0) * 16 + c.toNat / 16) * 16 + c.toNat % 16 = c.toNat := by omega
    have hs : ¬ (0xD800 ≤ c.toNat) := by omega
    have he : encodeRune c.toNat = [c] := by simp [encodeRune, hc]
    simp only [parseStrF, List.cons_append, unesc, List.nil_append]
    simp only [getu4, h0, hexVal_hexDigit h1, hexVal_hexDigit h2, hv]
    simp [hs, he]
  · rename_i h1 h2 _ _ _ _ _ h3
    simp only [Bool.or_eq_true, decide_eq_true_eq, not_or] at h3
    simp [parseStrF, h1, h2, h3.1.1.1]

theorem parseStrF_escape (n : Nat) (s r : Bytes) (h : s.length < n) :
    parseStrF n (escape s ++ 0x22 :: r) = some (s, r) := by
  induction s generalizing n with
  | nil =>
    cases n with
    | zero => simp at h
    | succ n => simp [escape, parseStrF]
  | cons c s ih =>
    cases n with
    | zero => simp at h
    | succ n =>
      have := ih n (by simpa using h)
      simp only [escape, List.flatMap_cons, List.append_assoc] at *
      rw [parseStrF_escByte, this]; rfl

theorem escByte_length (c : UInt8) : 1 ≤ (escByte c).length := by
  unfold escByte; repeat' split
  all_goals simp

theorem escape_length (s : Bytes) : s.length ≤ (escape s).length := by
  induction s with
  | nil => simp
  | cons c s ih =>
    simp only [escape, List.flatMap_cons, List.length_cons, List.length_append] at *
    have := escByte_length c; omega

theorem parseStr_print (s r : Bytes) :
    parseStr (escape (sanitize s) ++ 0x22 :: r) = some (sanitize s, r) := by
  unfold parseStr
  rw [parseStrF_escape]
  · simp
  · have := escape_length (sanitize s); simp; omega

theorem parseStr_escape {s : Bytes} (h : isUtf8 s = true) (r : Bytes) :
    parseStr (escape (sanitize s) ++ 0x22 :: r) = some (s, r) := by
  rw [parseStr_print, sanitize_of_isUtf8 h]

/-! ### numbers -/

/-- What may follow a number. Proof device: models no code. -/
def NumDelim (r : Bytes) : Prop :=
  ∀ c ∈ r.head?, isDigit c = false ∧ c ≠ 46 ∧ c ≠ 101 ∧ c ≠ 69

theorem takeWhile_append_delim {p : UInt8 → Bool} (s r : Bytes) (h : s.dropWhile p = [])
    (hr : ∀ c ∈ r.head?, p c = false) :
    (s ++ r).takeWhile p = s.takeWhile p ∧ (s ++ r).dropWhile p = r := by
  induction s with
  | nil => cases r with
    | nil => simp
    | cons c r => have := hr c (by simp); simp [List.takeWhile_cons, List.dropWhile_cons, this]
  | cons c s ih =>
    simp only [List.dropWhile_cons] at h
    split at h
    · rename_i hc
      have := ih h
      simp [List.takeWhile_cons, List.dropWhile_cons, hc, this]
    · simp at h

theorem dropWhile_append_ne {p : UInt8 → Bool} (s r : Bytes) (h : s.dropWhile p ≠ []) :
    (s ++ r).takeWhile p = s.takeWhile p ∧ (s ++ r).dropWhile p = s.dropWhile p ++ r := by
  induction s with
  | nil => simp at h
  | cons c s ih =>
    simp only [List.cons_append, List.dropWhile_cons, List.takeWhile_cons] at *
    split
    · rename_i hc
      simp only [hc, if_true] at h
      have := ih h
      simp [this]
    · simp

theorem scanExp_append {s r ex : Bytes} (h : scanExp s = some (ex, [])) (hr : NumDelim r) :
    scanExp (s ++ r) = some (ex, r) := by
  have hd : ∀ c ∈ r.head?, isDigit c = false := fun c hc => (hr c hc).1
  cases s with
  | nil =>
    simp [scanExp] at h; subst h
    cases r with
    | nil => rfl
    | cons c r =>
      have := hr c (by simp)
      simp [scanExp, this]
  | cons c s =>
    simp only [scanExp] at h
    split at h
    · rename_i hc
      cases s with
      | nil => simp at h
      | cons d s1 =>
        simp only [] at h
        simp only [List.cons_append, scanExp, hc, if_true]
        split at h
        · rename_i hd'
          simp only [hd', if_true]
          split at h
          · simp at h
          · rename_i hne
            simp only [Option.some.injEq, Prod.mk.injEq] at h
            have := takeWhile_append_delim s1 r h.2 hd
            rw [this.1, this.2, if_neg hne, h.1]
        · rename_i hd'
          simp only [hd']
          split at h
          · simp at h
          · rename_i hne
            simp only [Option.some.injEq, Prod.mk.injEq] at h
            have := takeWhile_append_delim (d :: s1) r h.2 hd
            simp only [List.cons_append] at this
            rw [this.1, this.2]
            simp only [Bool.false_eq_true, if_false]
            rw [if_neg hne, h.1]
    · simp at h

/-- The tail after a number literal that still has input is only unread input. -/
theorem scanExp_rest {s ex r0 : Bytes} (h : scanExp s = some (ex, r0)) : s = ex ++ r0 := by
  cases s with
  | nil => simp [scanExp] at h; simp [h.1, h.2]
  | cons c s =>
    simp only [scanExp] at h
    split at h
    · cases s with
      | nil => simp at h
      | cons d s1 =>
        simp only [] at h
        split at h
        · split at h
          · simp at h
          · simp only [Option.some.injEq, Prod.mk.injEq] at h
            rw [← h.1, ← h.2]; simp [List.takeWhile_append_dropWhile]
        · split at h
          · simp at h
          · simp only [Option.some.injEq, Prod.mk.injEq] at h
            rw [← h.1, ← h.2]; simp [List.takeWhile_append_dropWhile]
    · simp only [Option.some.injEq, Prod.mk.injEq] at h
      rw [← h.1, ← h.2]; rfl

theorem scanFrac_rest {s fp r0 : Bytes} (h : scanFrac s = some (fp, r0)) :
    s = (if fp = [] then [] else 46 :: fp) ++ r0 := by
  cases s with
  | nil => simp [scanFrac] at h; simp [h.1, h.2]
  | cons c s =>
    simp only [scanFrac] at h
    split at h
    · rename_i hc; subst hc
      split at h
      · simp at h
      · rename_i hne
        simp only [Option.some.injEq, Prod.mk.injEq] at h
        rw [← h.1, ← h.2, if_neg hne]; simp [List.takeWhile_append_dropWhile]
    · simp only [Option.some.injEq, Prod.mk.injEq] at h
      rw [← h.1, ← h.2]; rfl

theorem scanInt_rest {s ip r0 : Bytes} (h : scanInt s = some (ip, r0)) : s = ip ++ r0 := by
  cases s with
  | nil => simp [scanInt] at h
  | cons c s =>
    simp only [scanInt] at h
    split at h
    · rename_i hc; subst hc; simp at h; simp [← h.1, ← h.2]
    · split at h
      · simp only [Option.some.injEq, Prod.mk.injEq] at h
        rw [← h.1, ← h.2]; exact (List.takeWhile_append_dropWhile ..).symm
      · simp at h

theorem scanFrac_append {s s2 r fp ex : Bytes} (h : scanFrac s = some (fp, s2))
    (he : scanExp s2 = some (ex, [])) (hr : NumDelim r) :
    scanFrac (s ++ r) = some (fp, s2 ++ r) := by
  have hd : ∀ c ∈ r.head?, isDigit c = false := fun c hc => (hr c hc).1
  cases s with
  | nil =>
    simp [scanFrac] at h; rw [h.1, h.2]
    cases r with
    | nil => rfl
    | cons c r => have := hr c (by simp); simp [scanFrac, this]
  | cons c s =>
    simp only [scanFrac] at h
    simp only [List.cons_append, scanFrac]
    split at h
    · rename_i hc
      simp only [hc, if_true]
      split at h
      · simp at h
      · rename_i hne
        simp only [Option.some.injEq, Prod.mk.injEq] at h
        by_cases hs2 : s2 = []
        · subst hs2
          have := takeWhile_append_delim s r h.2 hd
          rw [this.1, this.2, if_neg hne, h.1]; rfl
        · have := dropWhile_append_ne s r (by rw [h.2]; exact hs2)
          rw [this.1, this.2, if_neg hne, h.1, h.2]
    · rename_i hc
      simp only [Option.some.injEq, Prod.mk.injEq] at h
      simp only [hc, if_false, ← h.1, ← h.2, List.cons_append]

theorem scanInt_append {s s1 r ip : Bytes} (h : scanInt s = some (ip, s1)) (hr : NumDelim r)  :
    scanInt (s ++ r) = some (ip, s1 ++ r) := by
  have hd : ∀ c ∈ r.head?, isDigit c = false := fun c hc => (hr c hc).1
  cases s with
  | nil => simp [scanInt] at h
  | cons c s =>
    simp only [scanInt] at h
    simp only [List.cons_append, scanInt]
    split at h
    · rename_i hc; simp only [hc, if_true]; simp at h; simp [← h.1, ← h.2]
    · rename_i hc
      simp only [hc, if_false]
      split at h
      · rename_i hdg
        simp only [hdg, if_true]
        simp only [Option.some.injEq, Prod.mk.injEq] at h
        by_cases hs1 : s1 = []
        · subst hs1
          have := takeWhile_append_delim (c :: s) r h.2 hd
          simp only [List.cons_append] at this
          rw [this.1, this.2, h.1]; rfl
        · have := dropWhile_append_ne (c :: s) r (by rw [h.2]; exact hs1)
          simp only [List.cons_append] at this
          rw [this.1, this.2, h.1, h.2]
      · simp at h

theorem scanAbs_append {neg : Bool} {s r : Bytes} {p : NumParts} (h : scanAbs neg s = some (p, []))
    (hr : NumDelim r) : scanAbs neg (s ++ r) = some (p, r) := by
  unfold scanAbs at h
  split at h
  · simp at h
  · rename_i ip s1 h1
    split at h
    · simp at h
    · rename_i fp s2 h2
      split at h
      · simp at h
      · rename_i ex s3 h3
        simp only [Option.some.injEq, Prod.mk.injEq] at h
        obtain ⟨rfl, rfl⟩ := h
        simp only [scanAbs, scanInt_append h1 hr, scanFrac_append h2 h3 hr, scanExp_append h3 hr]

theorem scanAbs_lit {neg : Bool} {s r : Bytes} {p : NumParts} (h : scanAbs neg s = some (p, r)) :
    (if neg then [45] else []) ++ s = p.lit ++ r := by
  unfold scanAbs at h
  split at h
  · simp at h
  · rename_i ip s1 h1
    split at h
    · simp at h
    · rename_i fp s2 h2
      split at h
      · simp at h
      · rename_i ex s3 h3
        simp only [Option.some.injEq, Prod.mk.injEq] at h
        obtain ⟨rfl, rfl⟩ := h
        have e1 := scanInt_rest h1
        have e2 := scanFrac_rest h2
        have e3 := scanExp_rest h3
        rw [e1, e2, e3]
        simp [NumParts.lit, List.append_assoc]

theorem scanNum_lit {s r : Bytes} {p : NumParts} (h : scanNum s = some (p, r)) : s = p.lit ++ r := by
  cases s with
  | nil => simp [scanNum] at h
  | cons c s =>
    simp only [scanNum] at h
    split at h
    · rename_i hc; subst hc; exact scanAbs_lit h
    · exact scanAbs_lit h

theorem scanNum_append {s r : Bytes} {p : NumParts} (h : scanNum s = some (p, []))
    (hr : NumDelim r) : scanNum (s ++ r) = some (p, r) := by
  cases s with
  | nil => simp [scanNum] at h
  | cons c s =>
    simp only [scanNum, List.cons_append] at *
    split at h
    · rename_i hc; simp only [hc, if_true]; exact scanAbs_append h hr
    · rename_i hc; simp only [hc, if_false]; exact scanAbs_append h hr

theorem numValid_iff {l : Bytes} : numValid l = true ↔ ∃ p, scanNum l = some (p, []) := by
  unfold numValid
  split
  · rename_i p h; simp [h]
  · rename_i h; simp; intro p hp; exact h p hp

theorem numValid_head {l : Bytes} (h : numValid l = true) :
    ∃ c t, l = c :: t ∧ (c = 45 ∨ isDigit c = true) := by
  obtain ⟨p, hp⟩ := numValid_iff.1 h
  cases l with
  | nil => simp [scanNum] at hp
  | cons c t =>
    refine ⟨c, t, rfl, ?_⟩
    by_cases hc : c = 45
    · exact Or.inl hc
    · right
      simp only [scanNum, hc, if_false, scanAbs, scanInt] at hp
      split at hp
      · simp at hp
      · rename_i h1
        split at h1
        · rename_i h0; subst h0; decide
        · split at h1
          · assumption
          · simp at h1

/-! ### documents -/

theorem isDigit_not {c : UInt8} (h : c = 45 ∨ isDigit c = true) :
    isWs c = false ∧ c ≠ 0x22 ∧ c ≠ 0x7b ∧ c ≠ 0x5b ∧ c ≠ 0x6e ∧ c ≠ 0x74 ∧ c ≠ 0x66 ∧ c ≠ 0x5d ∧ c ≠ 0x7d := by
  rcases h with rfl | h
  · decide
  · simp only [isDigit, Bool.and_eq_true, decide_eq_true_eq, UInt8.le_iff_toNat_le] at h
    have h48 : (48 : UInt8).toNat = 48 := rfl
    have h57 : (57 : UInt8).toNat = 57 := rfl
    have key : ∀ k : UInt8, (k.toNat < 48 ∨ 57 < k.toNat) → c ≠ k := by
      intro k hk e; subst e; omega
    refine ⟨?_, key _ (by decide), key _ (by decide), key _ (by decide), key _ (by decide),
      key _ (by decide), key _ (by decide), key _ (by decide), key _ (by decide)⟩
    simp [isWs, key 32 (by decide), key 9 (by decide), key 10 (by decide), key 13 (by decide)]

theorem skipWs_cons {c : UInt8} {r : Bytes} (h : isWs c = false) : skipWs (c :: r) = c :: r := by
  simp [skipWs, h]

/-- First byte of a printed value: never white space, never a closing bracket. -/
theorem print_head {j : Json} (h : j.WF) :
    ∃ c t, j.print = c :: t ∧ isWs c = false ∧ c ≠ 0x5d ∧ c ≠ 0x7d := by
  cases j with
  | null => exact ⟨_, _, rfl, by decide⟩
  | bool b => cases b <;> exact ⟨_, _, rfl, by decide⟩
  | num l =>
    simp only [Json.WF] at h
    obtain ⟨c, t, e, hc⟩ := numValid_head h
    have := isDigit_not hc
    exact ⟨c, t, by simp [Json.print, e], this.1, this.2.2.2.2.2.2.2.1, this.2.2.2.2.2.2.2.2⟩
  | str s => exact ⟨0x22, _, rfl, by decide⟩
  | arr l => exact ⟨0x5b, _, rfl, by decide⟩
  | obj l => exact ⟨0x7b, _, rfl, by decide⟩

theorem numDelim_cons {c : UInt8} {r : Bytes} (h : isDigit c = false ∧ c ≠ 46 ∧ c ≠ 101 ∧ c ≠ 69) :
    NumDelim (c :: r) := by
  intro x hx; simp at hx; subst hx; exact h

theorem printTail_delim (l : List Json) (r : Bytes) : NumDelim (Json.printTail l ++ r) := by
  cases l <;> simp only [Json.printTail, List.cons_append] <;> exact numDelim_cons (by decide)

theorem printMTail_delim (l : List (Bytes × Json)) (r : Bytes) : NumDelim (Json.printMTail l ++ r) := by
  cases l <;> simp only [Json.printMTail, List.cons_append] <;> exact numDelim_cons (by decide)

theorem printStr_append (s r : Bytes) :
    printStr s ++ r = 0x22 :: (escape (sanitize s) ++ 0x22 :: r) := by
  simp [printStr]

theorem printTail_length (l : List Json) : 1 ≤ (Json.printTail l).length := by
  cases l <;> simp [Json.printTail]
theorem printMTail_length (l : List (Bytes × Json)) : 1 ≤ (Json.printMTail l).length := by
  cases l <;> simp [Json.printMTail]
theorem printStr_length (s : Bytes) : 2 ≤ (printStr s).length := by
  simp [printStr]

mutual
theorem parseVal_print (j : Json) (h : j.WF) (n : Nat) (r : Bytes) (hn : j.print.length ≤ n)
    (hr : NumDelim r) : parseVal n (j.print ++ r) = some (j, r) := by
  cases n with
  | zero => obtain ⟨c, t, e, _⟩ := print_head h; rw [e] at hn; simp at hn
  | succ n =>
  cases j with
  | null => simp [Json.print, parseVal, skipWs, isWs, stripWord, hasPrefix]
  | bool b => cases b <;> simp [Json.print, parseVal, skipWs, isWs, stripWord, hasPrefix]
  | num l =>
    simp only [Json.WF] at h
    obtain ⟨c, t, e, hc⟩ := numValid_head h
    obtain ⟨p, hp⟩ := numValid_iff.1 h
    have hh := isDigit_not hc
    have hs := scanNum_append hp hr
    have hl := scanNum_lit hp
    simp only [List.append_nil] at hl
    simp only [Json.print, parseVal]
    rw [e] at hs ⊢
    simp only [List.cons_append] at hs ⊢
    rw [skipWs_cons hh.1]
    simp only [hh.2.1, hh.2.2.1, hh.2.2.2.1, hh.2.2.2.2.1, hh.2.2.2.2.2.1, hh.2.2.2.2.2.2.1, if_false, hs]
    simp [← hl, e]
  | str s =>
    simp only [Json.WF] at h
    simp only [Json.print, parseVal]
    rw [printStr_append, skipWs_cons (by decide)]
    simp only [if_true, parseStr_escape h, Option.map_some]
  | arr l =>
    simp only [Json.WF] at h
    simp only [Json.print, List.cons_append, parseVal]
    rw [skipWs_cons (by decide)]
    simp only [show (0x5b : UInt8) ≠ 0x22 by decide, show (0x5b : UInt8) ≠ 0x7b by decide, if_false, if_true]
    cases l with
    | nil => simp only [Json.printArr, List.cons_append, List.nil_append]; rw [skipWs_cons (by decide)]; simp
    | cons j l =>
      simp only [Json.WFList] at h
      simp only [Json.print, Json.printArr, List.length_cons, List.length_append] at hn
      obtain ⟨c, t, e, hw, hb, _⟩ := print_head h.1
      have h1 := parseVal_print j h.1 n (Json.printTail l ++ r) (by omega) (printTail_delim l r)
      have h2 := parseTail_print l h.2 n r (by
        rw [e] at hn; simp at hn; omega)
      simp only [Json.printArr, List.append_assoc]
      rw [e] at h1 ⊢
      simp only [List.cons_append] at h1 ⊢
      rw [skipWs_cons hw]
      simp only [hb, if_false]
      rw [h1]
      simp [h2]
  | obj l =>
    simp only [Json.WF] at h
    simp only [Json.print, List.cons_append, parseVal]
    rw [skipWs_cons (by decide)]
    simp only [show (0x7b : UInt8) ≠ 0x22 by decide, if_false, if_true]
    cases l with
    | nil => simp only [Json.printObj, List.cons_append, List.nil_append]; rw [skipWs_cons (by decide)]; simp
    | cons m l =>
      obtain ⟨k, j⟩ := m
      simp only [Json.WFMembers] at h
      simp only [Json.print, Json.printObj, List.length_cons, List.length_append] at hn
      have hk := printStr_length k
      have hmt := printMTail_length l
      cases n with
      | zero => omega
      | succ n =>
      have h1 := parseVal_print j h.1.2 n (Json.printMTail l ++ r) (by omega) (printMTail_delim l r)
      have h2 := parseMTail_print l h.2 (n + 1) r (by omega)
      simp only [Json.printObj, List.append_assoc, List.cons_append]
      rw [printStr_append, skipWs_cons (by decide)]
      simp only [show (0x22 : UInt8) ≠ 0x7d by decide, if_false]
      simp only [parseMember]
      rw [skipWs_cons (by decide)]
      simp only [if_true, parseStr_escape h.1.1]
      rw [skipWs_cons (by decide)]
      simp [h1, h2]
theorem parseTail_print (l : List Json) (h : Json.WFList l) (n : Nat) (r : Bytes)
    (hn : (Json.printTail l).length ≤ n) : parseTail n (Json.printTail l ++ r) = some (l, r) := by
  cases n with
  | zero => have := printTail_length l; omega
  | succ n =>
  cases l with
  | nil => simp only [Json.printTail, parseTail, List.cons_append]; rw [skipWs_cons (by decide)]; simp
  | cons j l =>
    simp only [Json.WFList] at h
    simp only [Json.printTail, List.length_cons, List.length_append] at hn
    have hmt := printTail_length l
    obtain ⟨c, t, e, _⟩ := print_head h.1
    have hl : 1 ≤ j.print.length := by rw [e]; simp
    have h1 := parseVal_print j h.1 n (Json.printTail l ++ r) (by omega) (printTail_delim l r)
    have h2 := parseTail_print l h.2 n r (by omega)
    simp only [Json.printTail, List.cons_append, List.append_assoc, parseTail]
    rw [skipWs_cons (by decide)]
    simp [h1, h2]
theorem parseMTail_print (l : List (Bytes × Json)) (h : Json.WFMembers l) (n : Nat) (r : Bytes)
    (hn : (Json.printMTail l).length ≤ n) : parseMTail n (Json.printMTail l ++ r) = some (l, r) := by
  cases n with
  | zero => have := printMTail_length l; omega
  | succ n =>
  cases l with
  | nil => simp only [Json.printMTail, parseMTail, List.cons_append]; rw [skipWs_cons (by decide)]; simp
  | cons m l =>
    obtain ⟨k, j⟩ := m
    simp only [Json.WFMembers] at h
    simp only [Json.printMTail, List.length_cons, List.length_append] at hn
    have hk := printStr_length k
    have hmt := printMTail_length l
    cases n with
    | zero => omega
    | succ n =>
    have h1 := parseVal_print j h.1.2 n (Json.printMTail l ++ r) (by omega) (printMTail_delim l r)
    have h2 := parseMTail_print l h.2 (n + 1) r (by omega)
    simp only [Json.printMTail, List.cons_append, List.append_assoc, parseMTail]
    rw [skipWs_cons (by decide)]
    simp only [show (0x2c : UInt8) ≠ 0x7d by decide, if_false, if_true]
    simp only [parseMember]
    rw [printStr_append, skipWs_cons (by decide)]
    simp only [if_true, parseStr_escape h.1.1]
    rw [skipWs_cons (by decide)]
    simp only [parseMTail] at h2
    simp [h1, h2]
end

/-- **Round trip**: printing a well-formed document and parsing it gives the document back. -/
theorem Json.parse_print (j : Json) (h : j.WF) : Json.parse j.print = some j := by
  have := parseVal_print j h (j.print.length + 1) [] (by omega) (by intro c hc; simp at hc)
  simp only [List.append_nil] at this
  simp [Json.parse, this, skipWs]

end Verif
