/- C43: name validation accepts exactly the documented names. -/
import Verif.Utils.Validate
import Verif.Spec.Names
import Verif.Json.RoundTrip

namespace Verif
open Spec

theorem isAlnum_iff (c : UInt8) : isAlnum c = true ↔ Alnum c := by
  simp [isAlnum, isDigit, isUpper, isLower, Alnum, or_assoc]

theorem cniReg_iff (s : Bytes) : cniReg s = true ↔ ValidName s := by
  cases s with
  | nil => simp [cniReg, ValidName]
  | cons c r =>
    simp only [cniReg, Bool.and_eq_true, List.all_eq_true, isNameChar, Bool.or_eq_true, decide_eq_true_eq,
      isAlnum_iff, ValidName, List.cons.injEq]
    constructor
    · rintro ⟨h1, h2⟩
      exact ⟨c, r, ⟨rfl, rfl⟩, h1, fun x hx => by have := h2 x hx; simpa [or_assoc] using this⟩
    · rintro ⟨_, _, ⟨rfl, rfl⟩, h1, h2⟩
      exact ⟨h1, fun x hx => by have := h2 x hx; simpa [or_assoc] using this⟩

/-- Container IDs: accepted iff valid; empty is code 3, anything else invalid is code 4. -/
theorem c43_container_id (s : Bytes) :
    (validateContainerID s = none ↔ ValidName s) ∧
    (∀ e, validateContainerID s = some e → (s = [] ∧ e.code = 3) ∨ (s ≠ [] ∧ e.code = 4)) := by
  rw [← cniReg_iff]
  unfold validateContainerID
  by_cases h : s = []
  · subst h; simp [cniReg]
  · by_cases h2 : cniReg s = true
    · simp [h, h2]
    · simp [h, h2]

/-- Network names: accepted iff valid; every rejection is code 7. -/
theorem c43_network_name (s : Bytes) :
    (validateNetworkName s = none ↔ ValidName s) ∧ (∀ e, validateNetworkName s = some e → e.code = 7) := by
  rw [← cniReg_iff]
  unfold validateNetworkName
  by_cases h : s = []
  · subst h; simp [cniReg]
  · by_cases h2 : cniReg s = true
    · simp [h, h2]
    · simp [h, h2]

def badRune (r : Nat) : Bool := r = 47 || r = 58 || isSpaceRune r

set_option maxRecDepth 20000 in
/-- A forbidden sequence at the head decodes to exactly one forbidden rune. -/
theorem forbidden_head (b : Bytes) : ∀ w ∈ forbiddenInIfName,
    w ≠ [] ∧ runeLen (w ++ b) = w.length ∧ badRune (runeVal w.length (w ++ b)) = true := by
  unfold forbiddenInIfName
  repeat (refine List.forall_mem_cons.2 ⟨⟨by simp, rfl, rfl⟩, ?_⟩)
  simp

theorem forbidden_first : ∀ w ∈ forbiddenInIfName, ∃ c r, w = c :: r ∧ isCont c = false := by
  unfold forbiddenInIfName
  repeat (refine List.forall_mem_cons.2 ⟨⟨_, _, rfl, rfl⟩, ?_⟩)
  simp

theorem badRune_cases {r : Nat} (h : badRune r = true) :
    r = 47 ∨ r = 58 ∨ r = 9 ∨ r = 10 ∨ r = 11 ∨ r = 12 ∨ r = 13 ∨ r = 32 ∨ r = 0x85 ∨ r = 0xA0 ∨ r = 0x1680 ∨
    r = 0x2028 ∨ r = 0x2029 ∨ r = 0x202F ∨ r = 0x205F ∨ r = 0x3000 ∨ (0x2000 ≤ r ∧ r ≤ 0x200A) := by
  simp only [badRune, isSpaceRune, Bool.or_eq_true, decide_eq_true_eq, List.mem_cons, List.not_mem_nil, or_false,
    Bool.and_eq_true] at h
  omega

theorem runeLen_one {a : UInt8} {s : Bytes} (h : runeLen (a :: s) = 1) : a.toNat < 128 := by
  by_cases ha : a < 0x80
  · rw [UInt8.lt_iff_toNat_lt] at ha; simpa using ha
  · simp only [runeLen, ha, if_false] at h
    repeat' split at h
    all_goals simp at h

theorem runeLen_two {s : Bytes} (h : runeLen s = 2) : ∃ a b r, s = a :: b :: r ∧
    0xC2 ≤ a.toNat ∧ a.toNat ≤ 0xDF ∧ isCont b = true := by
  cases s with
  | nil => simp [runeLen] at h
  | cons a s =>
    by_cases ha : a < 0x80
    · simp [runeLen, ha] at h
    · cases s with
      | nil => simp [runeLen, ha] at h
      | cons b s =>
        by_cases h2 : (0xC2 ≤ a && a ≤ 0xDF) = true
        · by_cases h3 : isCont b = true
          · simp only [Bool.and_eq_true, decide_eq_true_eq, UInt8.le_iff_toNat_le] at h2
            exact ⟨a, b, s, rfl, by simpa using h2.1, by simpa using h2.2, h3⟩
          · simp only [runeLen, ha, if_false, h2, if_true, h3] at h; simp at h
        · simp only [runeLen, ha, if_false, h2, Bool.false_eq_true] at h
          repeat' split at h
          all_goals simp at h

theorem runeLen_three {s : Bytes} (h : runeLen s = 3) : ∃ a b c r, s = a :: b :: c :: r ∧
    0xE0 ≤ a.toNat ∧ a.toNat ≤ 0xEF ∧ isCont b = true ∧ isCont c = true := by
  cases s with
  | nil => simp [runeLen] at h
  | cons a s =>
    by_cases ha : a < 0x80
    · simp [runeLen, ha] at h
    · cases s with
      | nil => simp [runeLen, ha] at h
      | cons b s =>
        by_cases h2 : (0xC2 ≤ a && a ≤ 0xDF) = true
        · simp only [runeLen, ha, if_false, h2, if_true] at h
          split at h <;> simp at h
        · simp only [runeLen, ha, if_false, h2, Bool.false_eq_true] at h
          cases s with
          | nil => simp at h
          | cons c s =>
            by_cases h3 : (0xE0 ≤ a && a ≤ 0xEF) = true
            · simp only [h3, if_true] at h
              split at h
              · rename_i h4
                simp only [Bool.and_eq_true, decide_eq_true_eq, UInt8.le_iff_toNat_le] at h3 h4
                exact ⟨a, b, c, s, rfl, by simpa using h3.1, by simpa using h3.2, h4.1.1.1, h4.1.1.2⟩
              · simp at h
            · simp only [h3, if_false, Bool.false_eq_true] at h
              repeat' split at h
              all_goals simp at h

theorem runeLen_four {s : Bytes} (h : runeLen s = 4) : ∃ a b c d r, s = a :: b :: c :: d :: r ∧
    0xF0 ≤ a.toNat ∧ isCont b = true ∧ isCont c = true ∧ isCont d = true ∧ (a.toNat = 0xF0 → 0x90 ≤ b.toNat) := by
  cases s with
  | nil => simp [runeLen] at h
  | cons a s =>
    by_cases ha : a < 0x80
    · simp [runeLen, ha] at h
    · cases s with
      | nil => simp [runeLen, ha] at h
      | cons b s =>
        by_cases h2 : (0xC2 ≤ a && a ≤ 0xDF) = true
        · simp only [runeLen, ha, if_false, h2, if_true] at h
          split at h <;> simp at h
        · simp only [runeLen, ha, if_false, h2, Bool.false_eq_true] at h
          cases s with
          | nil => simp at h
          | cons c s =>
            by_cases h3 : (0xE0 ≤ a && a ≤ 0xEF) = true
            · simp only [h3, if_true] at h
              split at h <;> simp at h
            · simp only [h3, if_false, Bool.false_eq_true] at h
              cases s with
              | nil => simp at h
              | cons d s =>
                simp only [] at h
                split at h
                · rename_i h4
                  split at h
                  · rename_i h5
                    simp only [Bool.and_eq_true, decide_eq_true_eq, UInt8.le_iff_toNat_le, Bool.not_eq_true',
                      Bool.and_eq_false_iff, beq_eq_false_iff_ne, decide_eq_false_iff_not, UInt8.lt_iff_toNat_lt] at h4 h5
                    refine ⟨a, b, c, d, s, rfl, by simpa using h4.1, h5.1.1.1.1, h5.1.1.1.2, h5.1.1.2, ?_⟩
                    intro e
                    rcases h5.1.2 with h | h
                    · exact absurd (UInt8.toNat_inj.1 (by simpa using e)) h
                    · simpa using h
                  · simp at h
                · simp at h

theorem runeVal_2 (a b : UInt8) (r : Bytes) :
    runeVal 2 (a :: b :: r) = (a.toNat - 0xC0) * 64 + (b.toNat - 0x80) := rfl
theorem runeVal_3 (a b c : UInt8) (r : Bytes) :
    runeVal 3 (a :: b :: c :: r) = (a.toNat - 0xE0) * 4096 + (b.toNat - 0x80) * 64 + (c.toNat - 0x80) := rfl
theorem runeVal_4 (a b c d : UInt8) (r : Bytes) : runeVal 4 (a :: b :: c :: d :: r) =
    (a.toNat - 0xF0) * 262144 + (b.toNat - 0x80) * 4096 + (c.toNat - 0x80) * 64 + (d.toNat - 0x80) := rfl

theorem isCont_bounds {c : UInt8} (h : isCont c = true) : 0x80 ≤ c.toNat ∧ c.toNat ≤ 0xBF := by
  simp only [isCont, Bool.and_eq_true, decide_eq_true_eq, UInt8.le_iff_toNat_le] at h
  exact ⟨by simpa using h.1, by simpa using h.2⟩

theorem ofNat_toNat' {c : UInt8} {n : Nat} (h : n = c.toNat) : UInt8.ofNat n = c := by
  subst h; exact UInt8.ofNat_toNat

/-- Re-encoding a decoded rune of up to three bytes that is not overlong gives back its bytes. -/
theorem encode_runeVal {s : Bytes} {k : Nat} (hk : runeLen s = k) (h0 : k ≠ 0)
    (h3 : k = 3 → 0x800 ≤ runeVal 3 s) : (k = 4 ∧ 0x10000 ≤ runeVal k s) ∨ encodeRune (runeVal k s) = s.take k := by
  rcases runeLen_cases s with e | e | e | e | e
  · omega
  · obtain rfl : k = 1 := by omega
    cases s with
    | nil => simp [runeLen] at hk
    | cons a s =>
      have ha := runeLen_one e
      right
      have e1 : runeVal 1 (a :: s) = a.toNat := rfl
      have e2 : encodeRune a.toNat = [UInt8.ofNat a.toNat] := by
        unfold encodeRune; rw [if_pos ha]
      rw [e1, e2, UInt8.ofNat_toNat]; rfl
  · obtain rfl : k = 2 := by omega
    obtain ⟨a, b, r, rfl, h1, h2, hb⟩ := runeLen_two e
    have hb := isCont_bounds hb
    right
    rw [runeVal_2]; simp only [encodeRune, List.take_succ_cons, List.take_zero]
    rw [if_neg (by omega), if_pos (by omega), ofNat_toNat' (c := a) (by omega), ofNat_toNat' (c := b) (by omega)]
  · obtain rfl : k = 3 := by omega
    obtain ⟨a, b, c, r, rfl, h1, h2, hb, hc⟩ := runeLen_three e
    have hb := isCont_bounds hb
    have hc := isCont_bounds hc
    right
    have h3 := h3 rfl
    simp only [runeVal_3] at h3
    rw [runeVal_3]; simp only [encodeRune, List.take_succ_cons, List.take_zero]
    rw [if_neg (by omega), if_neg (by omega), if_pos (by omega), ofNat_toNat' (c := a) (by omega),
      ofNat_toNat' (c := b) (by omega), ofNat_toNat' (c := c) (by omega)]
  · obtain rfl : k = 4 := by omega
    obtain ⟨a, b, c, d, r, rfl, h1, hb, hc, hd, h6⟩ := runeLen_four e
    have hb := isCont_bounds hb
    have hc := isCont_bounds hc
    have hd := isCont_bounds hd
    left
    refine ⟨rfl, ?_⟩
    rw [runeVal_4]
    omega

set_option maxRecDepth 20000 in
theorem encode_bad {r : Nat} (h : badRune r = true) : encodeRune r ∈ forbiddenInIfName := by
  have hb := badRune_cases h
  have : r = 47 ∨ r = 58 ∨ r = 9 ∨ r = 10 ∨ r = 11 ∨ r = 12 ∨ r = 13 ∨ r = 32 ∨ r = 0x85 ∨ r = 0xA0 ∨ r = 0x1680 ∨
    r = 0x2028 ∨ r = 0x2029 ∨ r = 0x202F ∨ r = 0x205F ∨ r = 0x3000 ∨ r = 0x2000 ∨ r = 0x2001 ∨ r = 0x2002 ∨
    r = 0x2003 ∨ r = 0x2004 ∨ r = 0x2005 ∨ r = 0x2006 ∨ r = 0x2007 ∨ r = 0x2008 ∨ r = 0x2009 ∨ r = 0x200A := by
    omega
  rcases this with rfl | rfl | rfl | rfl | rfl | rfl | rfl | rfl | rfl | rfl | rfl | rfl | rfl | rfl | rfl | rfl
    | rfl | rfl | rfl | rfl | rfl | rfl | rfl | rfl | rfl | rfl | rfl <;> decide +kernel

theorem runeLen_three_ge {s : Bytes} (h : runeLen s = 3) : 0x800 ≤ runeVal 3 s := by
  obtain ⟨a, b, c, r, rfl, h1, h2, hb, hc⟩ := runeLen_three h
  have hb := isCont_bounds hb
  have hc := isCont_bounds hc
  rw [runeVal_3]
  by_cases ea : a.toNat = 0xE0
  · have ea' : a = 0xE0 := UInt8.toNat_inj.1 (by simpa using ea)
    subst ea'
    by_cases hlt : b < 0xA0
    · exfalso
      have : ¬ ((0xE0 : UInt8) < 0x80) := by decide
      simp [runeLen, hlt] at h
    · have : 160 ≤ b.toNat := by
        rw [UInt8.lt_iff_toNat_lt] at hlt
        exact Nat.le_of_not_lt hlt
      have h224 : (224 : UInt8).toNat = 224 := rfl
      rw [h224]
      omega
  · omega

/-- A forbidden rune at the head is one of the forbidden sequences. -/
theorem bad_head {s : Bytes} {k : Nat} (hk : runeLen s = k) (h0 : k ≠ 0) (h : badRune (runeVal k s) = true) :
    s.take k ∈ forbiddenInIfName := by
  rcases encode_runeVal hk h0 (fun e => runeLen_three_ge (by omega)) with ⟨rfl, e⟩ | e
  · have hb := badRune_cases h; omega
  · rw [← e]; exact encode_bad h

theorem runes_mem {n : Nat} {s : Bytes} {r : Nat} (h : r ∈ runesF n s) (hb : badRune r = true) :
    ∃ w ∈ forbiddenInIfName, ∃ a b, s = a ++ w ++ b := by
  induction n generalizing s with
  | zero => cases s <;> simp [runesF] at h
  | succ n ih =>
    cases s with
    | nil => simp [runesF] at h
    | cons c t =>
      simp only [runesF] at h
      split at h
      · simp only [List.mem_cons] at h
        rcases h with rfl | h
        · have := badRune_cases hb; omega
        · obtain ⟨w, hw, a, b, e⟩ := ih h
          exact ⟨w, hw, c :: a, b, by simp [e]⟩
      · rename_i k hk0
        simp only [List.mem_cons] at h
        rcases h with rfl | h
        · exact ⟨_, bad_head rfl hk0 hb, [], _, (List.take_append_drop _ _).symm⟩
        · obtain ⟨w, hw, a, b, e⟩ := ih h
          exact ⟨w, hw, (c :: t).take (runeLen (c :: t)) ++ a, b, by
            rw [List.append_assoc, List.append_assoc, ← List.append_assoc a, ← e, List.take_append_drop]⟩

/-- Only the first byte of a rune is not a continuation byte. -/
theorem rune_tail_cont {s : Bytes} {i : Nat} (hi : 0 < i) (hk : i < runeLen s) (h : i < s.length) : isCont s[i] = true := by
  rcases runeLen_cases s with e | e | e | e | e
  · omega
  · omega
  · obtain ⟨a, b, r, rfl, _, _, hb⟩ := runeLen_two e
    obtain rfl : i = 1 := by omega
    exact hb
  · obtain ⟨a, b, c, r, rfl, _, _, hb, hc⟩ := runeLen_three e
    have : i = 1 ∨ i = 2 := by omega
    rcases this with rfl | rfl
    · exact hb
    · exact hc
  · obtain ⟨a, b, c, d, r, rfl, _, hb, hc, hd, _⟩ := runeLen_four e
    have : i = 1 ∨ i = 2 ∨ i = 3 := by omega
    rcases this with rfl | rfl | rfl
    · exact hb
    · exact hc
    · exact hd

theorem mem_runes {n : Nat} {a w b : Bytes} (hn : (a ++ w ++ b).length ≤ n) (hw : w ∈ forbiddenInIfName) :
    ∃ r ∈ runesF n (a ++ w ++ b), badRune r = true := by
  induction n generalizing a with
  | zero =>
    obtain ⟨c, r, rfl, _⟩ := forbidden_first w hw
    simp at hn
  | succ n ih =>
    cases a with
    | nil =>
      obtain ⟨h1, h2, h3⟩ := forbidden_head b w hw
      obtain ⟨c, r, rfl, _⟩ := forbidden_first w hw
      simp only [List.nil_append, List.cons_append, runesF]
      simp only [List.cons_append] at h2 h3
      rw [h2]
      simp only [List.length_cons] at *
      exact ⟨_, List.mem_cons_self, h3⟩
    | cons c t =>
      simp only [List.cons_append, runesF]
      have hn' : (t ++ w ++ b).length ≤ n := by simp only [List.cons_append, List.length_cons] at hn; omega
      split
      · obtain ⟨r, hr, hb⟩ := ih hn'
        exact ⟨r, List.mem_cons_of_mem _ hr, hb⟩
      · rename_i k hk0
        have hle : runeLen (c :: (t ++ w ++ b)) ≤ (c :: t).length := by
          refine Nat.le_of_not_lt fun hlt => ?_
          obtain ⟨x, y, rfl, hx⟩ := forbidden_first w hw
          have h1 : (c :: t).length < (c :: (t ++ (x :: y) ++ b)).length := by simp
          have h2 : (c :: (t ++ (x :: y) ++ b))[(c :: t).length]'h1 = x := by
            simp
          have := rune_tail_cont (i := (c :: t).length) (by simp) hlt h1
          rw [h2, hx] at this
          simp at this
        have e : (c :: (t ++ w ++ b)).drop (runeLen (c :: (t ++ w ++ b))) =
            (c :: t).drop (runeLen (c :: (t ++ w ++ b))) ++ w ++ b := by
          have e2 : c :: (t ++ w ++ b) = (c :: t) ++ (w ++ b) := by simp
          generalize hq : runeLen (c :: (t ++ w ++ b)) = q at *
          rw [e2, List.drop_append_of_le_length hle, List.append_assoc]
        rw [e]
        obtain ⟨r, hr, hb⟩ := ih (a := (c :: t).drop (runeLen (c :: (t ++ w ++ b)))) (by
          simp only [List.length_append, List.length_drop, List.length_cons] at hn' ⊢
          have : runeLen (c :: (t ++ w ++ b)) ≠ 0 := hk0
          omega)
        exact ⟨r, List.mem_cons_of_mem _ hr, hb⟩

/-- Interface names: accepted iff valid; every rejection is code 4. -/
theorem c43_interface_name (s : Bytes) :
    (validateInterfaceName s = none ↔ ValidIfName s) ∧ (∀ e, validateInterfaceName s = some e → e.code = 4) := by
  have key : (runes s).any (fun r => r = 47 || r = 58 || isSpaceRune r) = true ↔
      ∃ w ∈ forbiddenInIfName, ∃ a b, s = a ++ w ++ b := by
    rw [List.any_eq_true]
    constructor
    · rintro ⟨r, hr, hb⟩; exact runes_mem hr hb
    · rintro ⟨w, hw, a, b, rfl⟩; exact mem_runes (Nat.le_refl _) hw
  unfold validateInterfaceName ValidIfName
  constructor
  · by_cases h1 : s.length = 0
    · simp [h1]
    · rw [if_neg h1]
      by_cases h2 : s.length > 15
      · simp [h2]; omega
      · rw [if_neg h2]
        by_cases h3 : s = b!"." ∨ s = b!".."
        · rw [if_pos h3]; simp; intro _ _ h; simp [h] at h3; simp [h3]
        · rw [if_neg h3]
          simp only [not_or] at h3
          by_cases h4 : (runes s).any (fun r => r = 47 || r = 58 || isSpaceRune r) = true
          · rw [if_pos h4]
            obtain ⟨w, hw, h⟩ := key.1 h4
            simp only [reduceCtorEq, false_iff]
            rintro ⟨_, _, _, _, h5⟩
            exact h5 w hw h
          · rw [if_neg h4]
            simp only [true_iff]
            refine ⟨by omega, by omega, h3.1, h3.2, fun w hw h => h4 (key.2 ⟨w, hw, h⟩)⟩
  · intro e h
    repeat' split at h
    all_goals simp at h
    all_goals subst h; rfl

/-- Non-vacuity: accepted and rejected names. -/
example : ValidName b!"k8s-pod_net.1" ∧ ¬ ValidName b!"-x" ∧ ¬ ValidName b!"a/b" ∧ ¬ ValidName [] := by
  simp only [← cniReg_iff]; decide
example : ValidIfName b!"eth0.100" ∧ ¬ ValidIfName b!"a b" ∧ ¬ ValidIfName b!"a/b" ∧ ¬ ValidIfName b!".." ∧
    ¬ ValidIfName b!"abcdefghijklmnop" ∧ ValidIfName b!"abcdefghijklmno" ∧ ¬ ValidIfName b!"a b" ∧ ValidIfName b!"é-中" := by
  simp only [← (c43_interface_name _).1]; decide +kernel

end Verif
