/- C85: the texts of addresses and networks that are accepted. -/
import Verif.Props.AddrText
import Verif.Json.GrammarStr
import Verif.Spec.AddrRead
import Verif.Base.DigitLemmas

namespace Verif
open Spec

/-! ### numbers -/

theorem hexPlaces_iff {t : Bytes} {n : Nat} : Places HexDigit 16 t n ↔
    t ≠ [] ∧ (∀ c ∈ t, (hexVal c).isSome = true) ∧ n = t.foldl (fun a c => a * 16 + (hexVal c).getD 0) 0 := by
  refine places_iff (val := fun c => (hexVal c).getD 0) (fun c => (hexVal c).isSome) (fun c v => ?_) t n
  rw [← hexVal_iff]
  cases hexVal c with
  | none => simp
  | some w =>
    simp only [Option.some.injEq, Option.isSome_some, Option.getD_some, true_and]
    exact eq_comm

/-! ### IPv4 -/

theorem numeral_digits {s : Bytes} {n : Nat} (h : Numeral 10 s n) : s ≠ [] ∧ (∀ c ∈ s, isDigit c = true) ∧ digitsVal s = n := by
  have hd : ∀ {c : UInt8} {v : Nat}, v < 10 → Digit c v → isDigit c = true ∧ c.toNat - 48 = v := by
    intro c v hv h
    unfold Digit at h
    unfold isDigit
    simp [UInt8.le_iff_toNat_le]
    omega
  induction h with
  | digit hv h =>
    refine ⟨by simp, ?_, ?_⟩
    · intro x hx
      rw [List.mem_singleton.1 hx]
      exact (hd hv h).1
    · simp [digitsVal, (hd hv h).2]
  | more _ _ hv h ih =>
    refine ⟨by simp, ?_, ?_⟩
    · intro x hx
      rcases List.mem_append.1 hx with hx | hx
      · exact ih.2.1 x hx
      · rw [List.mem_singleton.1 hx]
        exact (hd hv h).1
    · rw [digitsVal_append_one, ih.2.2, (hd hv h).2]

theorem digitsVal_pos {s : Bytes} (h : ∀ c ∈ s, isDigit c = true) (h0 : s.head? ≠ some 48) (hne : s ≠ []) : digitsVal s ≠ 0 := by
  have grow : ∀ (r : Bytes) (a : Nat), a ≤ r.foldl (fun a c => a * 10 + (c.toNat - 48)) a := by
    intro r
    induction r with
    | nil => intro a; exact Nat.le_refl _
    | cons c r ih =>
      intro a
      rw [List.foldl_cons]
      exact Nat.le_trans (by omega) (ih _)
  cases s with
  | nil => exact absurd rfl hne
  | cons c r =>
    have hc := h c (List.mem_cons_self ..)
    have : c.toNat ≠ 48 := by
      intro e
      apply h0
      have : c = 48 := UInt8.toNat_inj.1 e
      rw [this]
      rfl
    unfold isDigit at hc
    simp [UInt8.le_iff_toNat_le] at hc
    have := grow r (0 * 10 + (c.toNat - 48))
    unfold digitsVal
    rw [List.foldl_cons]
    omega

theorem numeral_of_digits (k : Nat) : ∀ {s : Bytes}, s.length ≤ k → s ≠ [] → (∀ c ∈ s, isDigit c = true) → (s.head? = some 48 → s.length = 1) →
    Numeral 10 s (digitsVal s) := by
  have hd : ∀ {c : UInt8}, isDigit c = true → c.toNat - 48 < 10 ∧ Digit c (c.toNat - 48) := by
    intro c h
    unfold isDigit at h
    unfold Digit
    simp [UInt8.le_iff_toNat_le] at h
    omega
  induction k with
  | zero => intro s hk hne; exact absurd (List.length_eq_zero_iff.1 (by omega)) hne
  | succ k ih =>
    intro s hk hne hds h0
    rcases list_snoc s with rfl | ⟨t, c, rfl⟩
    · exact absurd rfl hne
    have hc := hd (hds c (by simp))
    rw [digitsVal_append_one]
    cases t with
    | nil =>
      have : digitsVal [] = 0 := rfl
      rw [this, Nat.zero_mul, Nat.zero_add]
      exact .digit hc.1 hc.2
    | cons x t =>
      have hds' : ∀ y ∈ x :: t, isDigit y = true := fun y hy => hds y (List.mem_append_left _ hy)
      have hx : (x :: t).head? ≠ some 48 := by
        intro e
        have := h0 (by simpa using e)
        simp at this
      refine .more (ih ?_ (by simp) hds' (fun e => absurd e hx)) (digitsVal_pos hds' hx (by simp)) hc.1 hc.2
      simp only [List.length_append, List.length_cons, List.length_nil] at hk ⊢
      omega

theorem parseOctet_numeral {s : Bytes} {x : UInt8} (h : parseOctet s = some x) : Numeral 10 s x.toNat := by
  unfold parseOctet at h
  split at h
  · cases h
  rename_i h1
  split at h
  · cases h
  rename_i h2
  split at h
  · rename_i h3
    cases h
    rw [toNat_small (by omega)]
    simp only [not_or, Bool.not_eq_true, List.any_eq_false, Bool.not_eq_true'] at h1
    refine numeral_of_digits _ (Nat.le_refl _) h1.1 (fun c hc => by simpa using h1.2 c hc) ?_
    intro e
    by_cases hl : s.length = 1
    · exact hl
    · exact absurd ⟨e, hl⟩ h2
  · cases h

theorem parseV4_sound {s q : Bytes} (h : parseV4 s = some q) : DottedText q s := by
  unfold parseV4 at h
  split at h
  · rename_i a b c d hs
    split at h
    · rename_i a' b' c' d' ha hb hc hd
      cases h
      refine ⟨a', b', c', d', a, b, c, d, rfl, parseOctet_numeral ha, parseOctet_numeral hb, parseOctet_numeral hc, parseOctet_numeral hd, ?_⟩
      have := joinWith_splitOn 46 s
      rw [hs] at this
      rw [← this]
      simp [joinWith]
    · cases h
  · cases h

theorem dotted_natDigits {s q : Bytes} (h : DottedText q s) :
    ∃ a b c d : UInt8, q = [a, b, c, d] ∧ s = natDigits a.toNat ++ [46] ++ natDigits b.toNat ++ [46] ++ natDigits c.toNat ++ [46] ++ natDigits d.toNat := by
  obtain ⟨a, b, c, d, ta, tb, tc, td, rfl, ha, hb, hc, hd, rfl⟩ := h
  refine ⟨a, b, c, d, rfl, ?_⟩
  rw [numeral_unique ha (natDigits_numeral _), numeral_unique hb (natDigits_numeral _), numeral_unique hc (natDigits_numeral _),
    numeral_unique hd (natDigits_numeral _)]

theorem parseV4_complete {s q : Bytes} (h : DottedText q s) : parseV4 s = some q := by
  obtain ⟨a, b, c, d, rfl, rfl⟩ := dotted_natDigits h
  rw [← parseV4_print a b c d]
  simp [printV4, joinWith]

theorem parseV4_iff {s q : Bytes} : parseV4 s = some q ↔ DottedText q s := ⟨parseV4_sound, parseV4_complete⟩



/-! ### groups -/

theorem takeWhile_exact {p : UInt8 → Bool} {t r : Bytes} (h : ∀ c ∈ t, p c = true) (hr : ∀ c ∈ r.head?, p c = false) : (t ++ r).takeWhile p = t := by
  induction t with
  | nil =>
    cases r with
    | nil => rfl
    | cons c r => simp [hr c rfl]
  | cons x t ih =>
    rw [List.cons_append, List.takeWhile_cons, if_pos (h x (List.mem_cons_self ..)), ih fun c hc => h c (List.mem_cons_of_mem _ hc)]

theorem takeWhile_mem (p : UInt8 → Bool) (s : Bytes) : ∀ c ∈ s.takeWhile p, p c = true := by
  induction s with
  | nil => intro c hc; cases hc
  | cons x s ih =>
    intro c hc
    rw [List.takeWhile_cons] at hc
    split at hc
    · rcases List.mem_cons.1 hc with rfl | hc
      · assumption
      · exact ih c hc
    · cases hc

theorem hexPlaces_lt {t : Bytes} {n : Nat} (h : Places HexDigit 16 t n) : n < 16 ^ t.length := by
  have hd : ∀ {c : UInt8} {v : Nat}, HexDigit c v → v < 16 := by
    intro c v h
    unfold HexDigit at h
    omega
  induction h with
  | digit h => simpa using hd h
  | more _ h ih =>
    have := hd h
    rw [List.length_append, List.length_singleton, Nat.pow_succ]
    omega

theorem scanHex_sound {s r : Bytes} {v : Nat} (h : scanHex s = some (v, r)) :
    ∃ t, s = t ++ r ∧ Hextet t (UInt8.ofNat (v / 256)) (UInt8.ofNat (v % 256)) := by
  unfold scanHex at h
  simp only at h
  split at h
  · cases h
  rename_i hne
  simp only [Option.some.injEq, Prod.mk.injEq] at h
  obtain ⟨rfl, rfl⟩ := h
  simp only [not_or, Nat.not_lt] at hne
  have hp : Places HexDigit 16 _ _ := hexPlaces_iff.2 ⟨hne.1, takeWhile_mem _ s, rfl⟩
  have hlt := hexPlaces_lt hp
  have : 16 ^ (s.takeWhile fun c => (hexVal c).isSome).length ≤ 16 ^ 4 := Nat.pow_le_pow_right (by decide) hne.2
  refine ⟨s.takeWhile fun c => (hexVal c).isSome, ?_, hne.2, ?_⟩
  · have e := List.takeWhile_append_dropWhile (p := fun c => (hexVal c).isSome) (l := s)
    conv => lhs; rw [← e]
    congr 1
    conv => rhs; rw [← e]
    rw [List.drop_left' (by rw [e])]
  · rw [toNat_small (by omega), toNat_small (by omega)]
    have e : ∀ v : Nat, v / 256 * 256 + v % 256 = v := by intro v; omega
    rw [e]
    exact hp

theorem hextet_bytes (a b : UInt8) :
    UInt8.ofNat ((a.toNat * 256 + b.toNat) / 256) = a ∧ UInt8.ofNat ((a.toNat * 256 + b.toNat) % 256) = b := by
  have ha := a.toNat_lt
  have hb := b.toNat_lt
  have e1 : (a.toNat * 256 + b.toNat) / 256 = a.toNat := by omega
  have e2 : (a.toNat * 256 + b.toNat) % 256 = b.toNat := by omega
  rw [e1, e2]
  simp

theorem scanHex_complete {t : Bytes} {a b : UInt8} (h : Hextet t a b) {r : Bytes} (hr : ∀ c ∈ r.head?, (hexVal c).isSome = false) :
    scanHex (t ++ r) = some (a.toNat * 256 + b.toNat, r) := by
  obtain ⟨hl, hp⟩ := h
  obtain ⟨h1, h2, h3⟩ := hexPlaces_iff.1 hp
  unfold scanHex
  simp only [takeWhile_exact h2 hr]
  rw [if_neg (by simp only [not_or, Nat.not_lt]; exact ⟨h1, hl⟩), List.drop_left, ← h3]

theorem hextet_head {t : Bytes} {a b : UInt8} (h : Hextet t a b) : ∃ c u, t = c :: u ∧ c ≠ 58 ∧ ∀ x ∈ t, x ≠ 58 ∧ x ≠ 46 ∧ x ≠ 37 := by
  obtain ⟨h1, h2, -⟩ := hexPlaces_iff.1 h.2
  have hx : ∀ x ∈ t, x ≠ 58 ∧ x ≠ 46 ∧ x ≠ 37 := by
    intro x hx
    have := h2 x hx
    refine ⟨?_, ?_, ?_⟩ <;> (rintro rfl; revert this; decide)
  cases t with
  | nil => exact absurd rfl h1
  | cons c u => exact ⟨c, u, rfl, (hx c (List.mem_cons_self ..)).1, hx⟩

theorem octet_hex (x : UInt8) : (natDigits x.toNat).length ≤ 4 ∧ (∀ c ∈ natDigits x.toNat, (hexVal c).isSome = true) := by
  have : ∀ n : Fin 256, (natDigits n.val).length ≤ 4 := by decide +kernel
  refine ⟨this ⟨x.toNat, x.toNat_lt⟩, ?_⟩
  intro c hc
  have := natDigits_digits _ c hc
  unfold hexVal
  rw [if_pos this]
  rfl

theorem dotted_scanHex {s q : Bytes} (h : DottedText q s) : ∃ v r, scanHex s = some (v, 46 :: r) := by
  obtain ⟨a, b, c, d, rfl, rfl⟩ := dotted_natDigits h
  have := octet_hex a
  simp only [List.append_assoc, List.singleton_append]
  unfold scanHex
  simp only
  rw [takeWhile_exact this.2 (by intro c hc; simp at hc; subst hc; decide), if_neg (by
    simp only [not_or, Nat.not_lt]
    exact ⟨natDigits_ne_nil _, this.1⟩), List.drop_left]
  exact ⟨_, _, rfl⟩

theorem dotted_head {s q : Bytes} (h : DottedText q s) : q.length = 4 ∧ ∃ c u, s = c :: u ∧ c ≠ 58 := by
  obtain ⟨a, b, c, d, rfl, rfl⟩ := dotted_natDigits h
  refine ⟨rfl, ?_⟩
  cases hn : natDigits a.toNat with
  | nil => exact absurd hn (natDigits_ne_nil _)
  | cons x u =>
    refine ⟨x, _, rfl, ?_⟩
    rintro rfl
    have := natDigits_digits a.toNat 58 (by rw [hn]; exact List.mem_cons_self ..)
    revert this
    decide

theorem tail_head {s bs : Bytes} (h : Tail s bs) : (∃ c u, s = c :: u ∧ c ≠ 58) ∧ 2 ≤ bs.length ∧ bs.length % 2 = 0 := by
  induction h with
  | one h =>
    obtain ⟨c, u, e, hc, -⟩ := hextet_head h
    exact ⟨⟨c, u, e, hc⟩, by simp, by simp⟩
  | dotted h =>
    obtain ⟨hl, hh⟩ := dotted_head h
    exact ⟨hh, by omega, by omega⟩
  | more h _ ih =>
    obtain ⟨c, u, rfl, hc, -⟩ := hextet_head h
    refine ⟨⟨c, _, rfl, hc⟩, by simp, ?_⟩
    simp only [List.length_append, List.length_cons, List.length_nil]
    omega

theorem groups_head {s bs : Bytes} (h : Groups s bs) : (∃ c u, s = c :: u ∧ c ≠ 58) ∧ 2 ≤ bs.length ∧ bs.length % 2 = 0 := by
  induction h with
  | one h =>
    obtain ⟨c, u, e, hc, -⟩ := hextet_head h
    exact ⟨⟨c, u, e, hc⟩, by simp, by simp⟩
  | more h _ ih =>
    obtain ⟨c, u, rfl, hc, -⟩ := hextet_head h
    refine ⟨⟨c, _, rfl, hc⟩, by simp, ?_⟩
    simp only [List.length_append, List.length_cons, List.length_nil]
    omega

/-! ### IPv6 -/

theorem loop_sound (n : Nat) : ∀ {s acc b : Bytes} {ell ell' : Option Nat}, s ≠ [] → parseV6Loop n s acc ell = some (b, ell') →
    (∃ bs, Tail s bs ∧ b = acc ++ bs ∧ ell' = ell) ∨
    (ell = none ∧ ∃ l r lb rb, s = l ++ [58, 58] ++ r ∧ Groups l lb ∧ (r = [] ∧ rb = [] ∨ Tail r rb) ∧ b = acc ++ lb ++ rb ∧
      ell' = some (acc.length + lb.length)) := by
  induction n with
  | zero =>
    intro s acc b ell ell' hne h
    simp only [parseV6Loop, if_neg hne] at h
    cases h
  | succ n ih =>
    intro s acc b ell ell' hne h
    simp only [parseV6Loop] at h
    split at h
    · cases h
    rename_i v r hs
    obtain ⟨t, rfl, ht⟩ := scanHex_sound hs
    cases r with
    | nil =>
      simp only [Option.some.injEq, Prod.mk.injEq] at h
      obtain ⟨rfl, rfl⟩ := h
      exact .inl ⟨_, by simpa using Tail.one ht, rfl, rfl⟩
    | cons c r =>
    simp only at h
    split at h
    · split at h
      · cases h
      · cases hv : parseV4 (t ++ c :: r) with
        | none => rw [hv] at h; cases h
        | some q =>
        rw [hv] at h
        simp only [Option.map_some, Option.some.injEq, Prod.mk.injEq] at h
        obtain ⟨rfl, rfl⟩ := h
        exact .inl ⟨q, .dotted (parseV4_sound hv), rfl, rfl⟩
    split at h
    · cases h
    rename_i hc
    have hc : c = 58 := by simpa using hc
    subst hc
    cases r with
    | nil => cases h
    | cons d r =>
    simp only at h
    split at h
    · rename_i hd
      subst hd
      split at h
      · cases h
      rename_i hell
      have hell : ell = none := by
        cases ell with
        | none => rfl
        | some e => exact absurd rfl hell
      subst hell
      right
      refine ⟨rfl, ?_⟩
      split at h
      · rename_i hr
        subst hr
        simp only [Option.some.injEq, Prod.mk.injEq] at h
        obtain ⟨rfl, rfl⟩ := h
        exact ⟨t, [], _, [], by simp, .one ht, .inl ⟨rfl, rfl⟩, by simp, by simp⟩
      · rename_i hr
        rcases ih hr h with ⟨bs, hbs, rfl, rfl⟩ | ⟨h, -⟩
        · exact ⟨t, r, _, bs, by simp, .one ht, .inr hbs, rfl, by simp⟩
        · cases h
    · rcases ih (by simp) h with ⟨bs, hbs, rfl, rfl⟩ | ⟨rfl, l, r', lb, rb, e, hl, hr, rfl, rfl⟩
      · exact .inl ⟨_, by simpa using Tail.more ht hbs, by simp, rfl⟩
      · refine .inr ⟨rfl, t ++ [58] ++ l, r', _, rb, by rw [e]; simp, .more ht hl, hr, by simp, ?_⟩
        simp only [List.length_append, List.length_cons, List.length_nil, Option.some.injEq]
        omega

theorem loop_tail {s bs : Bytes} (h : Tail s bs) : ∀ (n : Nat) (acc : Bytes) (ell : Option Nat), bs.length ≤ 2 * n → acc.length + bs.length ≤ 16 →
    (ell = none → acc.length + bs.length = 16) → parseV6Loop n s acc ell = some (acc ++ bs, ell) := by
  induction h with
  | @one t a b h =>
    intro n acc ell hn h16 he
    match n, hn with
    | 0, hn => simp at hn
    | n + 1, _ =>
      have := scanHex_complete h (r := []) (by simp)
      rw [List.append_nil] at this
      simp only [parseV6Loop, this, hextet_bytes]
  | @dotted t q h =>
    intro n acc ell hn h16 he
    obtain ⟨v, r, hs⟩ := dotted_scanHex h
    have hl := (dotted_head h).1
    match n, hn with
    | 0, hn => omega
    | n + 1, _ =>
      simp only [parseV6Loop, hs, if_true, parseV4_complete h, Option.map_some]
      rw [if_neg]
      rintro (⟨e, h12⟩ | h)
      · have := he e
        omega
      · omega
  | @more t u bs a b h hu ih =>
    intro n acc ell hn h16 he
    obtain ⟨⟨c, r, rfl, hc⟩, -⟩ := tail_head hu
    simp only [List.length_append, List.length_cons, List.length_nil] at hn h16 he
    match n, hn with
    | 0, hn => omega
    | n + 1, hn =>
      have hs := scanHex_complete h (r := 58 :: (c :: r)) (by intro x hx; simp at hx; subst hx; decide)
      have e : t ++ [58] ++ c :: r = t ++ 58 :: (c :: r) := by simp
      rw [e]
      have n46 : ¬ (58 : UInt8) = 46 := by decide
      simp only [parseV6Loop, hs, if_neg n46, if_neg hc, hextet_bytes, ne_eq, not_true_eq_false, if_false]
      rw [ih n _ ell (by omega) (by simp only [List.length_append, List.length_cons, List.length_nil]; omega) (by
        intro hh
        have := he hh
        simp only [List.length_append, List.length_cons, List.length_nil]
        omega)]
      simp

theorem loop_split {l lb : Bytes} (h : Groups l lb) : ∀ {r rb : Bytes}, (r = [] ∧ rb = [] ∨ Tail r rb) → ∀ (n : Nat) (acc : Bytes),
    lb.length + rb.length ≤ 2 * n → acc.length + lb.length + rb.length ≤ 16 →
    parseV6Loop n (l ++ [58, 58] ++ r) acc none = some (acc ++ lb ++ rb, some (acc.length + lb.length)) := by
  have n46 : ¬ (58 : UInt8) = 46 := by decide
  induction h with
  | @one t a b h =>
    intro r rb hr n acc hn h16
    simp only [List.length_cons, List.length_nil] at hn h16
    match n, hn with
    | 0, hn => omega
    | n + 1, hn =>
      have hs := scanHex_complete h (r := 58 :: (58 :: r)) (by intro x hx; simp at hx; subst hx; decide)
      have e : t ++ [58, 58] ++ r = t ++ 58 :: (58 :: r) := by simp
      rw [e]
      simp only [parseV6Loop, hs, if_neg n46, hextet_bytes, ne_eq, not_true_eq_false, if_false, if_true, Option.isSome_none, Bool.false_eq_true]
      rcases hr with ⟨rfl, rfl⟩ | hr
      · simp
      · obtain ⟨⟨c, u, hcu, -⟩, -⟩ := tail_head hr
        have hne : r ≠ [] := by rw [hcu]; simp
        rw [if_neg hne, loop_tail hr n _ _ (by omega) (by simp only [List.length_append, List.length_cons, List.length_nil]; omega) (by intro e; cases e)]
        simp
  | @more t u bs a b h hu ih =>
    intro r rb hr n acc hn h16
    obtain ⟨⟨c, x, rfl, hc⟩, -⟩ := groups_head hu
    simp only [List.length_append, List.length_cons, List.length_nil] at hn h16
    match n, hn with
    | 0, hn => omega
    | n + 1, hn =>
      have hs := scanHex_complete h (r := 58 :: (c :: (x ++ [58, 58] ++ r))) (by intro x hx; simp at hx; subst hx; decide)
      have e : t ++ [58] ++ c :: x ++ [58, 58] ++ r = t ++ 58 :: (c :: (x ++ [58, 58] ++ r)) := by simp
      rw [e]
      simp only [parseV6Loop, hs, if_neg n46, if_neg hc, hextet_bytes, ne_eq, not_true_eq_false, if_false]
      have := ih hr n (acc ++ [a, b]) (by omega) (by simp only [List.length_append, List.length_cons, List.length_nil]; omega)
      simp only [List.cons_append] at this
      rw [this]
      simp only [List.length_append, List.length_cons, List.length_nil, Option.some.injEq, Prod.mk.injEq]
      exact ⟨by simp, by omega⟩

theorem finish_split {lb rb : Bytes} {b : Bytes} (h : parseV6Finish (lb ++ rb) (some lb.length) = some b) :
    b.length = 16 ∧ ∃ n, 0 < n ∧ b = lb ++ List.replicate n 0 ++ rb := by
  unfold parseV6Finish at h
  split at h
  · rename_i hl
    simp only [Option.some.injEq, List.take_left, List.drop_left] at h
    subst h
    simp only [List.length_append, List.length_replicate] at hl ⊢
    exact ⟨by omega, _, by omega, rfl⟩
  · simp at h

theorem loop_length (n : Nat) : ∀ {s acc b : Bytes} {ell ell' : Option Nat}, parseV6Loop n s acc ell = some (b, ell') → acc.length + 2 * n ≤ 16 →
    b.length ≤ 16 := by
  induction n with
  | zero =>
    intro s acc b ell ell' h hl
    simp only [parseV6Loop] at h
    split at h
    · cases h; omega
    · cases h
  | succ n ih =>
    intro s acc b ell ell' h hl
    simp only [parseV6Loop] at h
    split at h
    · cases h
    rename_i v r hs
    have hl' : ∀ x y : UInt8, (acc ++ [x, y]).length + 2 * n ≤ 16 := by
      intro x y
      simp only [List.length_append, List.length_cons, List.length_nil]
      omega
    have hl2 : ∀ x y : UInt8, (acc ++ [x, y]).length ≤ 16 := fun x y => by have := hl' x y; omega
    cases r with
    | nil =>
      cases h
      exact hl2 _ _
    | cons c r =>
    simp only at h
    split at h
    · split at h
      · cases h
      · rename_i hc
        cases hv : parseV4 s with
        | none => rw [hv] at h; cases h
        | some q =>
        rw [hv] at h
        cases h
        rw [List.length_append, parseV4_length hv]
        simp only [not_or, Nat.not_lt] at hc
        exact hc.2
    split at h
    · cases h
    cases r with
    | nil => cases h
    | cons d r =>
    simp only at h
    split at h
    · split at h
      · cases h
      split at h
      · cases h
        exact hl2 _ _
      · exact ih h (hl' _ _)
    · exact ih h (hl' _ _)

theorem parseV6_sound {s b : Bytes} (h : parseV6 s = some b) : V6Text s b := by
  unfold parseV6 at h
  split at h
  · cases h
  rename_i b' ell hs
  unfold parseV6Start at hs
  split at hs
  · rename_i r
    split at hs
    · rename_i hr
      subst hr
      cases hs
      have := finish_split (lb := []) (rb := []) h
      exact ⟨this.1, .inr ⟨[], [], [], [], rfl, .inl ⟨rfl, rfl⟩, .inl ⟨rfl, rfl⟩, this.2⟩⟩
    · rename_i hr
      rcases loop_sound 8 hr hs with ⟨bs, hbs, rfl, rfl⟩ | ⟨h, -⟩
      · have := finish_split (lb := []) (rb := _) h
        exact ⟨this.1, .inr ⟨[], r, [], _, rfl, .inl ⟨rfl, rfl⟩, .inr hbs, this.2⟩⟩
      · cases h
  · have hne : s ≠ [] := by
      rintro rfl
      cases hs
    rcases loop_sound 8 hne hs with ⟨bs, hbs, rfl, rfl⟩ | ⟨-, l, r, lb, rb, rfl, hl, hr, rfl, rfl⟩
    · simp only [parseV6Finish] at h
      split at h
      · cases h
      · rename_i h16
        simp only [Option.isSome_none, Bool.false_eq_true, if_false, Option.some.injEq] at h
        subst h
        have := loop_length 8 hs (by simp)
        exact ⟨by omega, .inl hbs⟩
    · have := finish_split (lb := lb) (rb := rb) (by simpa using h)
      exact ⟨this.1, .inr ⟨l, r, lb, rb, rfl, .inr hl, hr, this.2⟩⟩

theorem parseV6_complete {s b : Bytes} (h : V6Text s b) : parseV6 s = some b := by
  obtain ⟨h16, h | ⟨l, r, lb, rb, rfl, hl, hr, n, hn, rfl⟩⟩ := h
  · obtain ⟨⟨c, u, rfl, hc⟩, -⟩ := tail_head h
    have hl := loop_tail h 8 [] none (by omega) (by simp; omega) (by intro; simpa using h16)
    unfold parseV6
    rw [parseV6Start_eq (by intro r e; exact hc (List.cons.inj e).1), hl]
    simp only [List.nil_append, parseV6Finish, h16]
    rfl
  · have hfin : parseV6Finish (lb ++ rb) (some lb.length) = some (lb ++ List.replicate n 0 ++ rb) := by
      simp only [List.length_append, List.length_replicate] at h16
      unfold parseV6Finish
      rw [if_pos (by simp only [List.length_append]; omega)]
      simp only [List.take_left, List.drop_left, List.length_append]
      have : 16 - (lb.length + rb.length) = n := by omega
      rw [this]
    simp only [List.length_append, List.length_replicate] at h16
    unfold parseV6
    rcases hl with ⟨rfl, rfl⟩ | hl
    · have e : [] ++ [58, 58] ++ r = 58 :: 58 :: r := rfl
      rw [e]
      rcases hr with ⟨rfl, rfl⟩ | hr
      · exact hfin
      · obtain ⟨⟨c, u, hcu, -⟩, -⟩ := tail_head hr
        have hne : r ≠ [] := by rw [hcu]; simp
        simp only [List.length_nil] at h16
        simp only [parseV6Start, if_neg hne]
        rw [loop_tail hr 8 [] (some 0) (by omega) (by simp only [List.length_nil]; omega) (by intro e; cases e)]
        exact hfin
    · obtain ⟨⟨c, u, rfl, hc⟩, -⟩ := groups_head hl
      rw [parseV6Start_eq (by intro r' e; exact hc (List.cons.inj e).1), loop_split hl hr 8 [] (by omega) (by simp only [List.length_nil]; omega)]
      simpa using hfin

theorem parseV6_iff {s b : Bytes} : parseV6 s = some b ↔ V6Text s b := ⟨parseV6_sound, parseV6_complete⟩


/-! ### addresses -/

theorem hextet_find {t : Bytes} {a b : UInt8} (h : Hextet t a b) (r : Bytes) :
    (t ++ 58 :: r).find? (fun c => c = 46 ∨ c = 58) = some 58 := by
  obtain ⟨-, -, -, -, hm⟩ := hextet_head h
  refine find?_append_first (fun x hx => ?_) (by decide)
  have := hm x hx
  simp [this.1, this.2.1]

theorem groups_find {l lb : Bytes} (h : Groups l lb) (r : Bytes) : (l ++ 58 :: r).find? (fun c => c = 46 ∨ c = 58) = some 58 := by
  cases h with
  | one h => exact hextet_find h r
  | more h _ =>
    simp only [List.append_assoc, List.singleton_append]
    exact hextet_find h _

theorem dotted_mem {s q : Bytes} (h : DottedText q s) : (37 : UInt8) ∉ s := by
  obtain ⟨a, b, c, d, rfl, rfl⟩ := dotted_natDigits h
  have := fun n => natDigits_no (n := n) (c := 37) (by decide)
  simp [this]

theorem tail_mem {s bs : Bytes} (h : Tail s bs) : (37 : UInt8) ∉ s := by
  induction h with
  | one h =>
    intro hx
    obtain ⟨-, -, -, -, hm⟩ := hextet_head h
    exact (hm _ hx).2.2 rfl
  | dotted h => exact dotted_mem h
  | more h _ ih =>
    obtain ⟨-, -, -, -, hm⟩ := hextet_head h
    intro hx
    simp only [List.mem_append, List.mem_singleton] at hx
    rcases hx with (hx | hx) | hx
    · exact (hm _ hx).2.2 rfl
    · revert hx; decide
    · exact ih hx

theorem groups_mem {s bs : Bytes} (h : Groups s bs) : (37 : UInt8) ∉ s := by
  induction h with
  | one h =>
    intro hx
    obtain ⟨-, -, -, -, hm⟩ := hextet_head h
    exact (hm _ hx).2.2 rfl
  | more h _ ih =>
    obtain ⟨-, -, -, -, hm⟩ := hextet_head h
    intro hx
    simp only [List.mem_append, List.mem_singleton] at hx
    rcases hx with (hx | hx) | hx
    · exact (hm _ hx).2.2 rfl
    · revert hx; decide
    · exact ih hx

theorem v6_shape {s b : Bytes} (h : V6Text s b) : (37 : UInt8) ∉ s ∧ s.find? (fun c => c = 46 ∨ c = 58) = some 58 := by
  obtain ⟨h16, h | ⟨l, r, lb, rb, rfl, hl, hr, -⟩⟩ := h
  · refine ⟨tail_mem h, ?_⟩
    cases h with
    | one h => simp at h16
    | dotted h => have := (dotted_head h).1; omega
    | more h _ =>
      simp only [List.append_assoc, List.singleton_append]
      exact hextet_find h _
  · constructor
    · simp only [List.mem_append, List.mem_cons, List.not_mem_nil, or_false, not_or]
      refine ⟨⟨?_, by decide, by decide⟩, ?_⟩
      · rcases hl with ⟨rfl, -⟩ | hl
        · simp
        · exact groups_mem hl
      · rcases hr with ⟨rfl, -⟩ | hr
        · simp
        · exact tail_mem hr
    · rcases hl with ⟨rfl, -⟩ | hl
      · rfl
      · have e : l ++ [58, 58] ++ r = l ++ 58 :: (58 :: r) := by simp
        rw [e]
        exact groups_find hl _

theorem dotted_find {s q : Bytes} (h : DottedText q s) : s.find? (fun c => c = 46 ∨ c = 58) = some 46 := by
  obtain ⟨a, b, c, d, rfl, rfl⟩ := dotted_natDigits h
  simp only [List.append_assoc, List.singleton_append]
  refine find?_append_first (fun x hx => ?_) (by decide)
  have := natDigits_digits _ x hx
  have h1 : x ≠ 46 := by rintro rfl; revert this; decide
  have h2 : x ≠ 58 := by rintro rfl; revert this; decide
  simp [h1, h2]

theorem parseAddr_iff {s b : Bytes} {bits : Nat} : parseAddr s = some (b, bits) ↔
    (∃ q, DottedText q s ∧ b = [0, 0, 0, 0, 0, 0, 0, 0, 0, 0, 255, 255] ++ q ∧ bits = 32) ∨ (V6Text s b ∧ bits = 128) := by
  constructor
  · intro h
    unfold parseAddr at h
    split at h
    · cases h
    split at h
    · cases hv : parseV4 s with
      | none => rw [hv] at h; cases h
      | some q =>
      rw [hv] at h
      cases h
      exact .inl ⟨q, parseV4_sound hv, rfl, rfl⟩
    · cases hv : parseV6 s with
      | none => rw [hv] at h; cases h
      | some q =>
      rw [hv] at h
      cases h
      exact .inr ⟨parseV6_sound hv, rfl⟩
    · cases h
  · rintro (⟨q, h, rfl, rfl⟩ | ⟨h, rfl⟩)
    · simp only [parseAddr, if_neg (dotted_mem h), dotted_find h, parseV4_complete h, Option.map_some]
      rfl
    · have := v6_shape h
      simp only [parseAddr, if_neg this.1, this.2, parseV6_complete h, Option.map_some]

/-- C85: a text is read as an address exactly if it is dotted decimal or a text of an IPv6 address, and then as the address it stands for. -/
theorem c85_address (t : Bytes) (ip : IP) : parseIP t = some ip ↔ AddressText t ip := by
  unfold parseIP AddressText
  constructor
  · intro h
    cases hp : parseAddr t with
    | none => rw [hp] at h; cases h
    | some p =>
    obtain ⟨b, bits⟩ := p
    rw [hp] at h
    cases h
    rcases parseAddr_iff.1 hp with ⟨q, h, rfl, -⟩ | ⟨h, -⟩
    · exact .inl ⟨q, h, rfl⟩
    · exact .inr h
  · rintro (⟨q, h, rfl⟩ | h)
    · rw [parseAddr_iff.2 (.inl ⟨q, h, rfl, rfl⟩)]; rfl
    · rw [parseAddr_iff.2 (.inr ⟨h, rfl⟩)]; rfl

/-! Witnesses: texts that are addresses, with different spellings of one address, and texts that are not. -/

example : AddressText (b! "1.2.3.4") [0, 0, 0, 0, 0, 0, 0, 0, 0, 0, 255, 255, 1, 2, 3, 4] := (c85_address _ _).1 (by decide +kernel)
example : AddressText (b! "::ffff:1.2.3.4") [0, 0, 0, 0, 0, 0, 0, 0, 0, 0, 255, 255, 1, 2, 3, 4] := (c85_address _ _).1 (by decide +kernel)
example : AddressText (b! "2001:DB8::1") [32, 1, 13, 184, 0, 0, 0, 0, 0, 0, 0, 0, 0, 0, 0, 1] := (c85_address _ _).1 (by decide +kernel)
example : AddressText (b! "2001:0db8:0:0::0:1") [32, 1, 13, 184, 0, 0, 0, 0, 0, 0, 0, 0, 0, 0, 0, 1] := (c85_address _ _).1 (by decide +kernel)
example : AddressText (b! "::") (List.replicate 16 0) := (c85_address _ _).1 (by decide +kernel)
example : AddressText (b! "1:2:3:4:5:6:7::") [0, 1, 0, 2, 0, 3, 0, 4, 0, 5, 0, 6, 0, 7, 0, 0] := (c85_address _ _).1 (by decide +kernel)

/-- The same, derived in the specification alone. -/
example : AddressText (b! "1::a") [0, 1, 0, 0, 0, 0, 0, 0, 0, 0, 0, 0, 0, 0, 0, 10] :=
  .inr ⟨by decide, .inr ⟨[49], [97], [0, 1], [0, 10], by decide, .inr (.one ⟨by decide, .digit (by unfold HexDigit; decide)⟩),
    .inr (.one ⟨by decide, .digit (by unfold HexDigit; decide)⟩), 12, by decide, by decide⟩⟩

private theorem notAddress {t : Bytes} (h : parseIP t = none) (ip : IP) : ¬ AddressText t ip := by
  rw [← c85_address, h]; simp

example (ip : IP) : ¬ AddressText (b! "") ip := notAddress (by decide +kernel) ip
example (ip : IP) : ¬ AddressText (b! "01.2.3.4") ip := notAddress (by decide +kernel) ip
example (ip : IP) : ¬ AddressText (b! "1.2.3") ip := notAddress (by decide +kernel) ip
example (ip : IP) : ¬ AddressText (b! "1.2.3.256") ip := notAddress (by decide +kernel) ip
example (ip : IP) : ¬ AddressText (b! "1::2::3") ip := notAddress (by decide +kernel) ip
example (ip : IP) : ¬ AddressText (b! "1:2:3:4:5:6:7:8::") ip := notAddress (by decide +kernel) ip
example (ip : IP) : ¬ AddressText (b! "12345::") ip := notAddress (by decide +kernel) ip
example (ip : IP) : ¬ AddressText (b! ":1") ip := notAddress (by decide +kernel) ip
example (ip : IP) : ¬ AddressText (b! "1.2.3.4::") ip := notAddress (by decide +kernel) ip
example (ip : IP) : ¬ AddressText (b! "fe80::1%eth0") ip := notAddress (by decide +kernel) ip

theorem cutSlash_sound {s a m : Bytes} (h : cutSlash s = some (a, m)) : s = a ++ [47] ++ m ∧ (47 : UInt8) ∉ a := by
  induction s generalizing a with
  | nil => cases h
  | cons c s ih =>
    simp only [cutSlash] at h
    split at h
    · rename_i hc
      subst hc
      cases h
      exact ⟨rfl, by simp⟩
    · rename_i hc
      cases hp : cutSlash s with
      | none => rw [hp] at h; cases h
      | some p =>
      obtain ⟨a', m'⟩ := p
      rw [hp] at h
      cases h
      obtain ⟨rfl, hn⟩ := ih hp
      refine ⟨rfl, ?_⟩
      simp only [List.mem_cons, not_or]
      exact ⟨fun e => hc e.symm, hn⟩

theorem slash_dotted {s q : Bytes} (h : DottedText q s) : (47 : UInt8) ∉ s := by
  obtain ⟨a, b, c, d, rfl, rfl⟩ := dotted_natDigits h
  have := fun n => natDigits_no (n := n) (c := 47) (by decide)
  simp [this]

theorem slash_hextet {t : Bytes} {a b : UInt8} (h : Hextet t a b) : (47 : UInt8) ∉ t := by
  intro hx
  have := (hexPlaces_iff.1 h.2).2.1 _ hx
  revert this
  decide

theorem slash_tail {s bs : Bytes} (h : Tail s bs) : (47 : UInt8) ∉ s := by
  induction h with
  | one h => exact slash_hextet h
  | dotted h => exact slash_dotted h
  | more h _ ih =>
    simp only [List.mem_append, List.mem_singleton, not_or]
    exact ⟨⟨slash_hextet h, by decide⟩, ih⟩

theorem slash_groups {s bs : Bytes} (h : Groups s bs) : (47 : UInt8) ∉ s := by
  induction h with
  | one h => exact slash_hextet h
  | more h _ ih =>
    simp only [List.mem_append, List.mem_singleton, not_or]
    exact ⟨⟨slash_hextet h, by decide⟩, ih⟩

theorem slash_v6 {s b : Bytes} (h : V6Text s b) : (47 : UInt8) ∉ s := by
  obtain ⟨-, h | ⟨l, r, lb, rb, rfl, hl, hr, -⟩⟩ := h
  · exact slash_tail h
  · simp only [List.mem_append, List.mem_cons, List.not_mem_nil, or_false, not_or]
    refine ⟨⟨?_, by decide, by decide⟩, ?_⟩
    · rcases hl with ⟨rfl, -⟩ | hl
      · simp
      · exact slash_groups hl
    · rcases hr with ⟨rfl, -⟩ | hr
      · simp
      · exact slash_tail hr

/-- C85: a text is read as a network exactly if it is the text of an address, a slash and decimal digits that stand for at most the number of bits
of the address; the whole address is kept, and the mask has that many one bits. -/
theorem c85_network (t : Bytes) (n : IPNet) : parseCIDR t = some n ↔ NetworkText t n := by
  unfold NetworkText
  constructor
  · intro h
    unfold parseCIDR at h
    split at h
    · cases h
    rename_i a m hc
    obtain ⟨rfl, -⟩ := cutSlash_sound hc
    split at h
    · cases h
    rename_i b bits ha
    split at h
    · cases h
    rename_i hm
    split at h
    · cases h
    rename_i hb
    cases h
    simp only [not_or, Bool.not_eq_true, List.any_eq_false, Bool.not_eq_true'] at hm
    have hp : Places DecDigit 10 m (digitsVal m) := decimal_iff.2 ⟨hm.1, fun c hc => by simpa using hm.2 c hc, rfl⟩
    refine ⟨a, m, _, rfl, hp, ?_⟩
    rcases parseAddr_iff.1 ha with ⟨q, h, rfl, rfl⟩ | ⟨h, rfl⟩
    · exact .inl ⟨q, h, rfl, cidrMask_isMask 4 _ (by omega)⟩
    · exact .inr ⟨h, cidrMask_isMask 16 _ (by omega)⟩
  · rintro ⟨a, m, k, rfl, hk, h⟩
    obtain ⟨hne, hd, rfl⟩ := decimal_iff.1 hk
    have hm : ¬ (m = [] ∨ m.any (fun c => !isDigit c) = true) := by
      simp only [not_or, Bool.not_eq_true, List.any_eq_false, Bool.not_eq_true']
      exact ⟨hne, fun c hc => by simp [hd c hc]⟩
    have e : a ++ [47] ++ m = a ++ 47 :: m := by simp
    obtain ⟨ip, mask⟩ := n
    rcases h with ⟨q, h, rfl, hmask⟩ | ⟨h, hmask⟩
    · have := parseAddr_iff.2 (.inl ⟨q, h, rfl, rfl⟩)
      have hmk : mask = cidrMask 4 (digitsVal m) := isMask_eq hmask
      simp only [parseCIDR, e, cutSlash_append _ _ (slash_dotted h), this, if_neg hm]
      have := hmask.2.1
      rw [if_neg (by omega), hmk]
    · have := parseAddr_iff.2 (.inr ⟨h, rfl⟩)
      have hmk : mask = cidrMask 16 (digitsVal m) := isMask_eq hmask
      simp only [parseCIDR, e, cutSlash_append _ _ (slash_v6 h), this, if_neg hm]
      have := hmask.2.1
      rw [if_neg (by omega), hmk]

/-- C85: a text stands for at most one address and at most one network, and no text is both. -/
theorem c85_unambiguous (t : Bytes) :
    (∀ ip ip', AddressText t ip → AddressText t ip' → ip = ip') ∧ (∀ n n', NetworkText t n → NetworkText t n' → n = n') ∧
    (∀ ip n, AddressText t ip → ¬ NetworkText t n) := by
  refine ⟨fun ip ip' h h' => ?_, fun n n' h h' => ?_, fun ip n h h' => ?_⟩
  · rw [← c85_address] at h h'
    exact Option.some.inj (h.symm.trans h')
  · rw [← c85_network] at h h'
    exact Option.some.inj (h.symm.trans h')
  · obtain ⟨a, m, k, rfl, -⟩ := h'
    have : (47 : UInt8) ∉ a ++ [47] ++ m := by
      rcases h with ⟨q, h, -⟩ | h
      · exact slash_dotted h
      · exact slash_v6 h
    simp at this

/-! Witnesses: networks, and texts that are not. The host bits are kept; leading zeros are allowed in the length. -/

example : NetworkText (b! "10.1.2.3/16") ⟨[0, 0, 0, 0, 0, 0, 0, 0, 0, 0, 255, 255, 10, 1, 2, 3], [255, 255, 0, 0]⟩ :=
  (c85_network _ _).1 (by decide +kernel)
example : NetworkText (b! "10.1.2.3/020") ⟨[0, 0, 0, 0, 0, 0, 0, 0, 0, 0, 255, 255, 10, 1, 2, 3], [255, 255, 240, 0]⟩ :=
  (c85_network _ _).1 (by decide +kernel)
example : NetworkText (b! "fe80::1/10") ⟨[254, 128, 0, 0, 0, 0, 0, 0, 0, 0, 0, 0, 0, 0, 0, 1], [255, 192, 0, 0, 0, 0, 0, 0, 0, 0, 0, 0, 0, 0, 0, 0]⟩ :=
  (c85_network _ _).1 (by decide +kernel)

private theorem notNetwork {t : Bytes} (h : parseCIDR t = none) (n : IPNet) : ¬ NetworkText t n := by
  rw [← c85_network, h]; simp

example (n : IPNet) : ¬ NetworkText (b! "1.2.3.4") n := notNetwork (by decide +kernel) n
example (n : IPNet) : ¬ NetworkText (b! "1.2.3.4/33") n := notNetwork (by decide +kernel) n
example (n : IPNet) : ¬ NetworkText (b! "::1/129") n := notNetwork (by decide +kernel) n
example (n : IPNet) : ¬ NetworkText (b! "1.2.3.4/") n := notNetwork (by decide +kernel) n
example (n : IPNet) : ¬ NetworkText (b! "/8") n := notNetwork (by decide +kernel) n
example (n : IPNet) : ¬ NetworkText (b! "1.2.3.4/-1") n := notNetwork (by decide +kernel) n
example (n : IPNet) : ¬ NetworkText (b! "1.2.3.4/8/8") n := notNetwork (by decide +kernel) n

/-- C85: in documents. An address is the empty text (no address) or the text of an address; a network is the text of a network; nothing but a text
is taken for a network, and for an address also `null` (no address). -/
theorem c85_documents (old : IP) (oldNet : IPNet) (j : Json) (ip : IP) (n : IPNet) :
    (decIP old j = some ip ↔ (ip = [] ∧ (j = .null ∨ j = .str [])) ∨ ∃ t, j = .str t ∧ AddressText t ip) ∧
    (decIPNet oldNet j = some n ↔ ∃ t, j = .str t ∧ NetworkText t n) := by
  have hnil : ∀ ip, ¬ AddressText [] ip := by
    intro ip h
    rw [← c85_address] at h
    cases h
  constructor
  · cases j with
    | null =>
      rw [show decIP old .null = some [] from rfl]
      constructor
      · intro h
        cases h; exact .inl ⟨rfl, .inl rfl⟩
      · rintro (⟨rfl, -⟩ | ⟨t, h, -⟩)
        · rfl
        · cases h
    | str s =>
      simp only [decIP, IP.unmarshalText]
      split
      · rename_i hs
        subst hs
        constructor
        · intro h
          cases h; exact .inl ⟨rfl, .inr rfl⟩
        · rintro (⟨rfl, -⟩ | ⟨t, h, ht⟩)
          · rfl
          · cases h
            exact absurd ht (hnil ip)
      · rename_i hs
        rw [c85_address]
        constructor
        · intro h
          exact .inr ⟨s, rfl, h⟩
        · rintro (⟨-, h | h⟩ | ⟨t, h, ht⟩)
          · cases h
          · cases h
            exact absurd rfl hs
          · cases h
            exact ht
    | _ =>
      simp only [decIP, reduceCtorEq, false_iff]
      rintro (⟨-, h | h⟩ | ⟨t, h, -⟩) <;> cases h
  · cases j with
    | str s =>
      simp only [decIPNet, Json.str.injEq]
      rw [c85_network]
      constructor
      · intro h
        exact ⟨s, rfl, h⟩
      · rintro ⟨t, rfl, h⟩
        exact h
    | _ =>
      simp only [decIPNet, reduceCtorEq, false_iff]
      rintro ⟨t, h, -⟩
      cases h

example : decIP [] (.str (b! "::1")) = some (List.replicate 15 0 ++ [1]) ∧ decIP [9] (.str []) = some [] ∧ decIP [9] .null = some [] ∧
    (decIP [9] (.bool true)).isNone ∧ (decIPNet ⟨[], []⟩ .null).isNone ∧ (decIPNet ⟨[], []⟩ (.str (b! "1.2.3.0/24"))).isSome := by
  decide +kernel

end Verif
