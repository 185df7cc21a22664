/- C83: addresses and networks are written in their canonical text. -/
import Verif.Net.IPLemmas
import Verif.Json.Decode
import Verif.Spec.AddrText

namespace Verif
open Spec

theorem digit_unique {c c' : UInt8} {v : Nat} (h : Digit c v) (h' : Digit c' v) : c = c' := by
  apply UInt8.toNat_inj.1
  unfold Digit at h h'
  omega

theorem numeral_unique {b : Nat} {t t' : Bytes} {n : Nat} (h : Numeral b t n) (h' : Numeral b t' n) : t = t' := by
  induction h generalizing t' with
  | @digit c v hv hd =>
    cases h' with
    | digit hv' hd' => rw [digit_unique hd hd']
    | @more t2 n2 c2 v2 ht hn hv' hd' =>
      exfalso
      have : b ≤ n2 * b := Nat.le_mul_of_pos_left _ (by omega)
      omega
  | @more t n c v ht hn hv hd ih =>
    generalize hm : n * b + v = m at h'
    cases h' with
    | digit hv' hd' =>
      exfalso
      have : b ≤ n * b := Nat.le_mul_of_pos_left _ (by omega)
      omega
    | @more t2 n2 c2 v2 ht2 hn2 hv2 hd2 =>
      have hb : 0 < b := by omega
      have h1 : n = n2 := by
        have := congrArg (· / b) hm
        simp only [Nat.mul_comm _ b, Nat.mul_add_div hb, Nat.div_eq_of_lt hv, Nat.div_eq_of_lt hv2] at this
        omega
      subst h1
      have h2 : v = v2 := by omega
      subst h2
      rw [ih ht2, digit_unique hd hd2]

theorem toNat_small {k : Nat} (h : k < 256) : (UInt8.ofNat k).toNat = k := by
  simp [UInt8.toNat_ofNat', Nat.mod_eq_of_lt h]

theorem natDigitsF_numeral (f n : Nat) (h : n ≤ f) : Numeral 10 (natDigitsF f n) n := by
  induction f generalizing n with
  | zero =>
    have : n = 0 := by omega
    subst this
    exact .digit (by omega) (.inl ⟨by omega, by decide⟩)
  | succ f ih =>
    unfold natDigitsF
    split
    · rename_i h
      exact .digit h (.inl ⟨h, toNat_small (by omega)⟩)
    · rename_i h'
      have := Numeral.more (ih (n / 10) (by omega)) (by omega) (Nat.mod_lt n (by decide : 10 > 0))
        (c := UInt8.ofNat (48 + n % 10)) (.inl ⟨by omega, toNat_small (by omega)⟩)
      rwa [Nat.div_add_mod'] at this

theorem natDigits_numeral (n : Nat) : Numeral 10 (natDigits n) n := natDigitsF_numeral n n (Nat.le_refl _)

theorem hexDigit_digit {v : Nat} (h : v < 16) : Digit (hexDigit v) v := by
  unfold hexDigit
  split
  · exact .inl ⟨by omega, toNat_small (by omega)⟩
  · exact .inr ⟨by omega, h, toNat_small (by omega)⟩

theorem hexDigits_numeral {n : Nat} (h : n < 65536) : Numeral 16 (hexDigits n) n := by
  have step : ∀ {t : Bytes} {m : Nat}, Numeral 16 t (m / 16) → 16 ≤ m → Numeral 16 (t ++ [hexDigit (m % 16)]) m := by
    intro t m ht hm
    have := Numeral.more ht (by omega) (Nat.mod_lt m (by decide : 16 > 0)) (hexDigit_digit (Nat.mod_lt m (by decide)))
    rwa [Nat.div_add_mod'] at this
  have one : ∀ {m : Nat}, m < 16 → Numeral 16 [hexDigit m] m := fun hm => .digit hm (hexDigit_digit hm)
  unfold hexDigits
  split
  · exact one (by omega)
  split
  · exact step (one (by omega)) (by omega)
  split
  · have h1 := step (m := n / 16) (one (by omega)) (by omega)
    have h2 := step h1 (by omega)
    rw [Nat.div_div_eq_div_mul] at h2
    exact h2
  · have h1 := step (m := n / 16 / 16) (one (by omega)) (by omega)
    have h2 := step h1 (by omega)
    have h3 := step h2 (by omega)
    simp only [Nat.div_div_eq_div_mul] at h3
    exact h3

theorem joinWith_intercalate (sep : Bytes) (ts : List Bytes) : joinWith sep ts = List.intercalate sep ts := by
  induction ts with
  | nil => rfl
  | cons t ts ih =>
    cases ts with
    | nil => simp [joinWith, List.intercalate]
    | cons u ts =>
      rw [joinWith, ih]
      simp [List.intercalate, List.intersperse]

/-! ### the run of zeros that is left out -/

theorem zeros_head (gs : List Nat) (n : Nat) : Zeros gs 0 n ↔ n ≤ zeroRun gs := by
  induction gs generalizing n with
  | nil =>
    refine ⟨fun h => ?_, fun h k hk => ?_⟩
    · cases n with
      | zero => exact Nat.zero_le _
      | succ n => have := h 0 (by omega); cases this
    · simp only [zeroRun] at h; omega
  | cons g gs ih =>
    cases n with
    | zero => exact ⟨fun _ => Nat.zero_le _, fun _ k hk => by omega⟩
    | succ n =>
      by_cases hg : g = 0
      · subst hg
        have : zeroRun (0 :: gs) = zeroRun gs + 1 := rfl
        rw [this, Nat.succ_le_succ_iff, ← ih]
        refine ⟨fun h k hk => ?_, fun h k hk => ?_⟩
        · have := h (k + 1) (by omega)
          simpa using this
        · cases k with
          | zero => rfl
          | succ k => have := h k (by omega); simpa using this
      · have : zeroRun (g :: gs) = 0 := by
          unfold zeroRun
          split
          · rename_i h; cases h; exact absurd rfl hg
          · rfl
        rw [this]
        refine ⟨fun h => ?_, fun h => by omega⟩
        have := h 0 (by omega)
        simp only [Nat.zero_add, List.getElem?_cons_zero, Option.some.injEq] at this
        exact absurd this hg

theorem zeros_drop (gs : List Nat) (i n : Nat) : Zeros gs i n ↔ Zeros (gs.drop i) 0 n := by
  unfold Zeros
  simp only [List.getElem?_drop, Nat.zero_add]

theorem bestRun_longest (whole gs : List Nat) (i : Nat) (best : Nat × Nat) (hw : whole.drop i = gs) (hi : i + gs.length = whole.length)
    (h1 : best.2 = 0 ∨ 2 ≤ best.2 ∧ Zeros whole best.1 best.2)
    (h3 : best.2 = 0 ∨ best.1 < i)
    (h2 : ∀ s' n', s' < i → Zeros whole s' n' → n' < 2 ∨ n' ≤ best.2 ∧ (n' = best.2 → best.1 ≤ s')) :
    let r := bestRun i gs best
    (r.2 = 0 ∨ 2 ≤ r.2 ∧ Zeros whole r.1 r.2) ∧ ∀ s' n', Zeros whole s' n' → n' < 2 ∨ n' ≤ r.2 ∧ (n' = r.2 → r.1 ≤ s') := by
  induction gs generalizing i best with
  | nil =>
    refine ⟨h1, fun s' n' hz => ?_⟩
    by_cases hs : s' < i
    · exact h2 s' n' hs hz
    · left
      cases n' with
      | zero => omega
      | succ n' =>
        have := hz 0 (by omega)
        obtain ⟨h, -⟩ := List.getElem?_eq_some_iff.1 this
        simp only [List.length_nil] at hi
        omega
  | cons g gs ih =>
    have hrun : ∀ n, Zeros whole i n ↔ n ≤ zeroRun (g :: gs) := by
      intro n
      rw [zeros_drop, hw, zeros_head]
    simp only [bestRun]
    refine ih (i + 1) _ (by rw [← List.tail_drop, hw]; rfl) (by simp only [List.length_cons] at hi; omega) ?_ ?_ ?_
    · split
      · rename_i hl
        exact .inr ⟨hl.1, (hrun _).2 (Nat.le_refl _)⟩
      · exact h1
    · split
      · exact .inr (by simp)
      · rcases h3 with h3 | h3
        · exact .inl h3
        · exact .inr (by omega)
    · intro s' n' hs hz
      by_cases hsi : s' = i
      · subst hsi
        have := (hrun n').1 hz
        split
        · exact .inr ⟨this, fun _ => Nat.le_refl _⟩
        · rename_i hl
          by_cases hn : n' < 2
          · exact .inl hn
          · refine .inr ⟨by omega, fun _ => ?_⟩
            rcases h3 with h3 | h3 <;> omega
      · rcases h2 s' n' (by omega) hz with h | ⟨h, h'⟩
        · exact .inl h
        · split
          · rename_i hl
            exact .inr ⟨by simp only; omega, fun e => by simp only at e; omega⟩
          · exact .inr ⟨h, h'⟩

theorem colon_text {gs : List Nat} (hg : ∀ g ∈ gs, g < 65536) :
    ColonText gs (if (bestRun 0 gs (0, 0)).2 = 0 then joinWith [58] (gs.map hexDigits)
      else joinWith [58] ((gs.take (bestRun 0 gs (0, 0)).1).map hexDigits) ++ [58, 58]
        ++ joinWith [58] ((gs.drop ((bestRun 0 gs (0, 0)).1 + (bestRun 0 gs (0, 0)).2)).map hexDigits)) := by
  obtain ⟨h1, h2⟩ := bestRun_longest gs gs 0 (0, 0) rfl (Nat.zero_add _) (.inl rfl) (.inl rfl) (fun _ _ h => by omega)
  generalize bestRun 0 gs (0, 0) = run at h1 h2
  refine ⟨gs.map hexDigits, List.length_map .., fun i g x hi hx => ?_, ?_⟩
  · rw [List.getElem?_map, hi] at hx
    cases hx
    exact hexDigits_numeral (hg g (List.mem_of_getElem? hi))
  · split
    · rename_i h0
      left
      refine ⟨fun s n hz => ?_, joinWith_intercalate ..⟩
      rcases h2 s n hz with h | ⟨h, -⟩ <;> omega
    · rename_i h0
      right
      rcases h1 with h1 | ⟨h1, hz⟩
      · exact absurd h1 h0
      refine ⟨run.1, run.2, h1, hz, fun s' n' hz' => ?_, ?_⟩
      · rcases h2 s' n' hz' with h | h
        · exact ⟨by omega, fun e => by omega⟩
        · exact h
      · rw [joinWith_intercalate, joinWith_intercalate, List.map_take, List.map_drop]

theorem colon_unique {gs : List Nat} {t t' : Bytes} (h : ColonText gs t) (h' : ColonText gs t') : t = t' := by
  obtain ⟨ts, hl, hn, h⟩ := h
  obtain ⟨ts', hl', hn', h'⟩ := h'
  have : ts = ts' := by
    refine List.ext_getElem (hl.trans hl'.symm) fun i h1 h2 => ?_
    have hg : i < gs.length := by omega
    exact numeral_unique (hn i gs[i] ts[i] (List.getElem?_eq_getElem _) (List.getElem?_eq_getElem _))
      (hn' i gs[i] ts'[i] (List.getElem?_eq_getElem _) (List.getElem?_eq_getElem _))
  subst this
  rcases h with ⟨h, rfl⟩ | ⟨s, n, h2, hz, hb, rfl⟩ <;> rcases h' with ⟨h', rfl⟩ | ⟨s', n', h2', hz', hb', rfl⟩
  · rfl
  · exact absurd (h _ _ hz') (by omega)
  · exact absurd (h' _ _ hz) (by omega)
  · obtain ⟨e1, e2⟩ := hb _ _ hz'
    obtain ⟨e3, e4⟩ := hb' _ _ hz
    have : n = n' := by omega
    subst this
    have : s = s' := by have := e2 rfl; have := e4 rfl; omega
    subst this
    rfl

theorem dotted_unique {q : List UInt8} {t t' : Bytes} (h : DottedText q t) (h' : DottedText q t') : t = t' := by
  obtain ⟨a, b, c, d, ta, tb, tc, td, rfl, h1, h2, h3, h4, rfl⟩ := h
  obtain ⟨_, _, _, _, ta', tb', tc', td', e, h1', h2', h3', h4', rfl⟩ := h'
  cases e
  rw [numeral_unique h1 h1', numeral_unique h2 h2', numeral_unique h3 h3', numeral_unique h4 h4']

theorem isV4_unique {ip q q' : List UInt8} (h : IsV4 ip q) (h' : IsV4 ip q') : q = q' := by
  obtain ⟨hl, h⟩ := h
  obtain ⟨hl', h'⟩ := h'
  rcases h with h | h <;> rcases h' with h' | h'
  · exact h.symm.trans h'
  · subst h
    have := congrArg List.length h'
    simp only [List.length_append, List.length_cons, List.length_nil] at this
    omega
  · subst h'
    have := congrArg List.length h
    simp only [List.length_append, List.length_cons, List.length_nil] at this
    omega
  · rw [h] at h'
    exact List.append_cancel_left h'

theorem isV4_iff {ip q : List UInt8} : IsV4 ip q ↔ IP.to4 ip = some q := by
  unfold IsV4 IP.to4
  refine ⟨?_, fun h => ?_⟩
  · rintro ⟨hl, rfl | rfl⟩
    · rw [if_pos hl]
    · rw [if_neg (by simp [hl]), if_pos ⟨by simp [hl], rfl⟩]
      rfl
  · split at h
    · cases h; exact ⟨by assumption, .inl rfl⟩
    · split at h
      · rename_i h16
        cases h
        refine ⟨by rw [List.length_drop, h16.1], .inr ?_⟩
        have := List.take_append_drop 12 ip
        rw [h16.2] at this
        exact this.symm
      · cases h

theorem groups_get (ip : Bytes) : ∀ (i : Nat) (a b : UInt8), ip[2 * i]? = some a → ip[2 * i + 1]? = some b →
    (groups ip)[i]? = some (a.toNat * 256 + b.toNat) := by
  fun_induction groups ip with
  | case1 x y r ih =>
    intro i a b ha hb
    cases i with
    | zero => cases ha; cases hb; rfl
    | succ i =>
      rw [List.getElem?_cons_succ]
      exact ih i a b (by simpa [Nat.mul_add] using ha) (by simpa [Nat.mul_add] using hb)
  | case2 ip h =>
    intro i a b ha hb
    match ip, h with
    | [], _ => simp at ha
    | [x], _ =>
      have := (List.getElem?_eq_some_iff.1 hb).1
      simp at this
    | x :: y :: r, h => exact absurd rfl (h x y r)

theorem groups_half (ip : Bytes) : (groups ip).length = ip.length / 2 := by
  fun_induction groups ip with
  | case1 x y r ih => simp only [List.length_cons, ih]; omega
  | case2 ip h =>
    match ip, h with
    | [], _ => rfl
    | [x], _ => simp
    | x :: y :: r, h => exact absurd rfl (h x y r)

/-- Every address, of four or sixteen bytes, is written in its canonical text. -/
theorem c83_address (ip : IP) (h : ip.length = 4 ∨ ip.length = 16) : AddrText ip ip.str := by
  have hne : ip ≠ [] := by rintro rfl; rcases h with h | h <;> cases h
  unfold IP.str
  rw [if_neg hne, if_neg (by omega)]
  cases h4 : IP.to4 ip with
  | some q =>
    have hq := isV4_iff.2 h4
    refine .inl ⟨q, hq, ?_⟩
    obtain ⟨hl, -⟩ := hq
    match q, hl with
    | [a, b, c, d], _ =>
      refine ⟨a, b, c, d, _, _, _, _, rfl, natDigits_numeral _, natDigits_numeral _, natDigits_numeral _, natDigits_numeral _, ?_⟩
      simp [printV4, joinWith]
  | none =>
    have hno : ∀ q, ¬ IsV4 ip q := by
      intro q hq
      rw [isV4_iff.1 hq] at h4
      cases h4
    have h16 : ip.length = 16 := by
      rcases h with h | h
      · exact absurd ⟨h, .inl rfl⟩ (hno ip)
      · exact h
    refine .inr ⟨hno, groups ip, by rw [groups_half, h16], h16, groups_get ip, ?_⟩
    exact colon_text (groups_lt ip)

/-- And an address has no other canonical text. -/
theorem c83_only (ip : IP) (t : Bytes) (h : AddrText ip t) : t = ip.str := by
  have uniq : ∀ {t t' : Bytes}, AddrText ip t → AddrText ip t' → t = t' := by
    rintro t t' (⟨q, hq, h⟩ | ⟨hno, gs, hl, h16, hg, h⟩) (⟨q', hq', h'⟩ | ⟨hno', gs', hl', -, hg', h'⟩)
    · rw [isV4_unique hq hq'] at h
      exact dotted_unique h h'
    · exact absurd hq (hno' q)
    · exact absurd hq' (hno q')
    · have : gs = gs' := by
        refine List.ext_getElem? fun i => ?_
        by_cases hi : i < 8
        · have h1 : 2 * i < ip.length := by omega
          have h2 : 2 * i + 1 < ip.length := by omega
          rw [hg i _ _ (List.getElem?_eq_getElem h1) (List.getElem?_eq_getElem h2), hg' i _ _ (List.getElem?_eq_getElem h1) (List.getElem?_eq_getElem h2)]
        · rw [List.getElem?_eq_none (by omega), List.getElem?_eq_none (by omega)]
      subst this
      exact colon_unique h h'
  refine uniq h (c83_address ip ?_)
  rcases h with ⟨q, ⟨hq, h⟩, -⟩ | ⟨-, -, -, h16, -⟩
  · rcases h with rfl | rfl
    · exact .inl hq
    · exact .inr (by simp [hq])
  · exact .inr h16

/-! ### masks -/

theorem byte_bits {a b : UInt8} (h : ∀ j, j < 8 → a.toNat.testBit (7 - j) = b.toNat.testBit (7 - j)) : a = b := by
  apply UInt8.toNat_inj.1
  apply Nat.eq_of_testBit_eq
  intro i
  by_cases hi : i < 8
  · have := h (7 - i) (by omega)
    rwa [show 7 - (7 - i) = i by omega] at this
  · have h8 : ∀ x : UInt8, x.toNat.testBit i = false := by
      intro x
      apply Nat.testBit_lt_two_pow
      have h1 := x.toNat_lt
      have h2 : 2 ^ 8 ≤ 2 ^ i := Nat.pow_le_pow_right (by omega) (by omega)
      omega
    rw [h8, h8]

theorem full_bits : ∀ j, j < 8 → (255 : UInt8).toNat.testBit (7 - j) = true := by decide
theorem partial_bits : ∀ k, k < 8 → ∀ j, j < 8 → (partialMask k).toNat.testBit (7 - j) = decide (j < k) := by decide
theorem zero_bits : ∀ j, (0 : UInt8).toNat.testBit j = false := fun j => Nat.zero_testBit j

theorem cidrMask_isMask (n p : Nat) (h : p ≤ 8 * n) : IsMask (cidrMask n p) n p := by
  induction n generalizing p with
  | zero => exact ⟨rfl, h, fun i v hv => by cases hv⟩
  | succ n ih =>
    unfold cidrMask
    split
    · rename_i h8
      obtain ⟨h1, -, h3⟩ := ih (p - 8) (by omega)
      refine ⟨by rw [List.length_cons, h1], h, fun i v hv j hj => ?_⟩
      cases i with
      | zero =>
        cases hv
        rw [full_bits j hj]
        exact ⟨fun _ => by omega, fun _ => rfl⟩
      | succ i =>
        rw [List.getElem?_cons_succ] at hv
        rw [h3 i v hv j hj]
        omega
    · refine ⟨by simp, h, fun i v hv j hj => ?_⟩
      cases i with
      | zero =>
        cases hv
        rw [partial_bits p (by omega) j hj, decide_eq_true_iff]
        omega
      | succ i =>
        rw [List.getElem?_cons_succ] at hv
        cases List.eq_of_mem_replicate (List.mem_of_getElem? hv)
        rw [zero_bits]
        exact ⟨(fun h => by cases h), (fun h => by omega)⟩

/-- There is exactly one mask with that many one bits. -/
theorem isMask_eq {m : Bytes} {n p : Nat} (h : IsMask m n p) : m = cidrMask n p := by
  obtain ⟨h1, h2, h3⟩ := h
  obtain ⟨h4, -, h5⟩ := cidrMask_isMask n p h2
  refine List.ext_getElem (h1.trans h4.symm) fun i hi hi' => byte_bits fun j hj => ?_
  have e1 := h3 i _ (List.getElem?_eq_getElem hi) j hj
  have e2 := h5 i _ (List.getElem?_eq_getElem hi') j hj
  rw [Bool.eq_iff_iff, e1, e2]

/-- Every network whose mask fits its address, and is some one bits followed by zero bits, is written in its canonical text: the whole address, host bits
included, and the number of one bits. It has no other one. -/
theorem c83_net (n : IPNet) (p : Nat)
    (h : (∃ q, IsV4 n.ip q) ∧ IsMask n.mask 4 p ∨ (∀ q, ¬ IsV4 n.ip q) ∧ n.ip.length = 16 ∧ IsMask n.mask 16 p) (t : Bytes) :
    NetText n t ↔ t = n.str := by
  have hlen : n.ip.length = 4 ∨ n.ip.length = 16 := by
    rcases h with ⟨⟨q, hq, h⟩, -⟩ | ⟨-, h, -⟩
    · rcases h with h | h
      · exact .inl (by rw [h, hq])
      · exact .inr (by rw [h]; simp [hq])
    · exact .inr h
  have hstr : n.str = n.ip.str ++ [47] ++ natDigits p := by
    unfold IPNet.str IPNet.norm
    rcases h with ⟨⟨q, hq⟩, hm⟩ | ⟨hno, h16, hm⟩
    · have h4 := isV4_iff.1 hq
      have hs : IP.str q = IP.str n.ip := by
        obtain ⟨hl, hq⟩ := hq
        rcases hq with hq | hq
        · rw [hq]
        · match q, hl with
          | [a, b, c, d], _ => rw [hq]; exact IP.str_v4 a b c d
      simp only [h4]
      rw [if_pos hm.1, if_pos hq.1]
      simp only [isMask_eq hm, maskLen_cidrMask 4 p hm.2.1, hs]
    · have h4 : IP.to4 n.ip = none := by
        cases h4 : IP.to4 n.ip with
        | none => rfl
        | some q => exact absurd (isV4_iff.2 h4) (hno q)
      simp only [h4, h16, if_true]
      rw [if_neg (by rw [hm.1]; decide), if_pos hm.1, if_neg (by decide)]
      simp only [isMask_eq hm, maskLen_cidrMask 16 p hm.2.1]
  have huniq : ∀ {k p' : Nat}, IsMask n.mask k p' → IsMask n.mask k p → p' = p := by
    intro k p' h1 h2
    have e1 := isMask_eq h1
    rw [isMask_eq h2] at e1
    have := congrArg maskLen e1
    rw [maskLen_cidrMask k p h2.2.1, maskLen_cidrMask k p' h1.2.1] at this
    cases this
    rfl
  constructor
  · rintro ⟨a, p', tp, ha, hm, htp, rfl⟩
    have : p' = p := by
      rcases h with ⟨⟨q, hq⟩, hm'⟩ | ⟨hno, -, hm'⟩ <;> rcases hm with ⟨⟨q', hq'⟩, hm⟩ | ⟨hno', hm⟩
      · exact huniq hm hm'
      · exact absurd hq (hno' q)
      · exact absurd hq' (hno q')
      · exact huniq hm hm'
    subst this
    rw [hstr, c83_only _ _ ha, numeral_unique htp (natDigits_numeral p')]
  · rintro rfl
    refine ⟨n.ip.str, p, natDigits p, c83_address _ hlen, ?_, natDigits_numeral p, hstr⟩
    rcases h with h | ⟨h1, -, h2⟩
    · exact .inl h
    · exact .inr ⟨h1, h2⟩

/-- In JSON an address is its text in quotes, and an absent one the empty text; a network is its text. -/
theorem c83_json (ip : IP) (h : ip.length = 4 ∨ ip.length = 16) (n : IPNet) (p : Nat)
    (hn : (∃ q, IsV4 n.ip q) ∧ IsMask n.mask 4 p ∨ (∀ q, ¬ IsV4 n.ip q) ∧ n.ip.length = 16 ∧ IsMask n.mask 16 p) :
    (∃ t, AddrText ip t ∧ jIP ip = .str t) ∧ jIP [] = .str [] ∧ ∃ t, NetText n t ∧ jIPNet n = .str t := by
  refine ⟨⟨_, c83_address ip h, ?_⟩, rfl, _, (c83_net n p hn _).2 rfl, rfl⟩
  unfold jIP
  rw [if_neg (by rintro rfl; rcases h with h | h <;> cases h)]

/-! ### non-vacuity -/

namespace Example

/-- Two runs of zeros of the same length: the first one is left out. A single zero is not. An address of IPv4. -/
example : AddrText [0x20, 1, 0xd, 0xb8, 0, 0, 0, 0, 0, 1, 0, 0, 0, 0, 0, 0xA] b!"2001:db8::1:0:0:a" ∧
    AddrText [0x20, 1, 0xd, 0xb8, 0, 0, 0, 1, 0, 1, 0, 1, 0, 1, 0, 1] b!"2001:db8:0:1:1:1:1:1" ∧
    AddrText [0, 0, 0, 0, 0, 0, 0, 0, 0, 0, 0, 0, 0, 0, 0, 0] b!"::" ∧
    AddrText [10, 0, 0, 255] b!"10.0.0.255" ∧ AddrText (v4InV6Prefix ++ [10, 0, 0, 255]) b!"10.0.0.255" ∧
    NetText { ip := [10, 1, 2, 3], mask := [255, 255, 0, 0] } b!"10.1.2.3/16" := by
  have key : ∀ (ip : IP) (t : Bytes), ip.length = 4 ∨ ip.length = 16 → ip.str = t → AddrText ip t := by
    rintro ip t h rfl
    exact c83_address ip h
  refine ⟨key _ _ (.inr rfl) (by decide +kernel), key _ _ (.inr rfl) (by decide +kernel), key _ _ (.inr rfl) (by decide +kernel),
    key _ _ (.inl rfl) (by decide +kernel), key _ _ (.inr rfl) (by decide +kernel), ?_⟩
  refine (c83_net _ 16 (.inl ⟨⟨_, rfl, .inl rfl⟩, ?_⟩) _).2 (by decide +kernel)
  exact cidrMask_isMask 4 16 (by decide)

/-- The second run, an upper-case digit, a leading zero and a single zero left out are not canonical. -/
example : ¬ AddrText [0x20, 1, 0xd, 0xb8, 0, 0, 0, 0, 0, 1, 0, 0, 0, 0, 0, 0xA] b!"2001:db8:0:0:1::a" ∧
    ¬ AddrText [0x20, 1, 0xd, 0xb8, 0, 0, 0, 0, 0, 1, 0, 0, 0, 0, 0, 0xA] b!"2001:db8::1:0:0:A" ∧
    ¬ AddrText [0x20, 1, 0xd, 0xb8, 0, 0, 0, 0, 0, 1, 0, 0, 0, 0, 0, 0xA] b!"2001:0db8::1:0:0:a" ∧
    ¬ AddrText [0x20, 1, 0xd, 0xb8, 0, 0, 0, 1, 0, 1, 0, 1, 0, 1, 0, 1] b!"2001:db8::1:1:1:1:1" := by
  refine ⟨?_, ?_, ?_, ?_⟩ <;>
  · intro h
    have := c83_only _ _ h
    revert this
    decide +kernel

end Example

end Verif
