/-
IEEE-754 binary64 as used by encoding/json when a JSON number is decoded into `interface{}`
(`strconv.ParseFloat(s, 64)`, round to nearest even, range error on overflow) and encoded again
(`strconv.FormatFloat(f, 'f' or 'e', -1, 64)`, encoding/json/encode.go floatEncoder). This is the
Go standard library, not the repository, but the repository routes every configuration value and
every raw result through it (libcni/conf.go:392-417 InjectConf, libcni/api.go:259-297 cacheAdd,
pkg/types/100/types.go:100-119 MarshalJSON), so it is modelled concretely.
-/
import Verif.Json.RoundTrip

namespace Verif
set_option exponentiation.threshold 3000
set_option linter.unusedSimpArgs false

/-- A finite binary64: `(-1)^neg * m * 2^k * 2^-1074`. Go standard library (strconv, encoding/json):
numbers decoded into `interface{}` and printed again by libcni/conf.go:392-417 `InjectConf`,
libcni/api.go:259-297 `CNIConfig.cacheAdd` and pkg/types/100/types.go:100-119 `Result.MarshalJSON`. -/
structure F64 where
  neg : Bool
  m : Nat
  k : Nat
  deriving DecidableEq, Repr

/-- The representable ones: normal, or subnormal/zero. Proof device: models no code. -/
def F64.Canon (f : F64) : Prop := f.m < 2 ^ 53 ∧ f.k ≤ 2045 ∧ (f.k = 0 ∨ 2 ^ 52 ≤ f.m)

/-- Round half to even of `N / D`. Go standard library (strconv, encoding/json): numbers decoded
into `interface{}` and printed again by libcni/conf.go:392-417 `InjectConf`,
libcni/api.go:259-297 `CNIConfig.cacheAdd` and pkg/types/100/types.go:100-119 `Result.MarshalJSON`. -/
def rhe (N D : Nat) : Nat :=
  let q := N / D
  let r := N % D
  if 2 * r < D then q else if D < 2 * r then q + 1 else q + q % 2

/-- Nearest binary64 of `num / den`; `none` on overflow (Go: `ErrRange`). Go standard library
(strconv, encoding/json): numbers decoded into `interface{}` and printed again by
libcni/conf.go:392-417 `InjectConf`, libcni/api.go:259-297 `CNIConfig.cacheAdd` and
pkg/types/100/types.go:100-119 `Result.MarshalJSON`. -/
def roundRat (neg : Bool) (num den : Nat) : Option F64 :=
  let N := num * 2 ^ 1074
  let k0 := Nat.log2 (N / den) - 52
  let m0 := rhe N (den * 2 ^ k0)
  let f : F64 := if m0 = 2 ^ 53 then ⟨neg, 2 ^ 52, k0 + 1⟩ else ⟨neg, m0, k0⟩
  if f.k ≤ 2045 then some f else none

/-- Value of the raw exponent text (`""`, `e5`, `E+5`, `e-5`). Go standard library (strconv,
encoding/json): numbers decoded into `interface{}` and printed again by
libcni/conf.go:392-417 `InjectConf`, libcni/api.go:259-297 `CNIConfig.cacheAdd` and pkg/types/100/types.go:100-119 `Result.MarshalJSON`. -/
def expVal : Bytes → Int
  | _ :: d :: r =>
    if d = 43 then (digitsVal r : Int)
    else if d = 45 then -(digitsVal r : Int)
    else (digitsVal (d :: r) : Int)
  | _ => 0

/-- `strconv.ParseFloat` on the scanned literal. Go standard library (strconv, encoding/json):
numbers decoded into `interface{}` and printed again by libcni/conf.go:392-417 `InjectConf`,
libcni/api.go:259-297 `CNIConfig.cacheAdd` and pkg/types/100/types.go:100-119 `Result.MarshalJSON`. -/
def NumParts.toF64 (p : NumParts) : Option F64 :=
  let D := digitsVal (p.ip ++ p.fp)
  let E : Int := expVal p.ex - p.fp.length
  match E with
  | .ofNat e => roundRat p.neg (D * 10 ^ e) 1
  | .negSucc e => roundRat p.neg D (10 ^ (e + 1))

/-- `strconv.ParseFloat` on a literal. Go standard library (strconv, encoding/json): numbers decoded
into `interface{}` and printed again by libcni/conf.go:392-417 `InjectConf`,
libcni/api.go:259-297 `CNIConfig.cacheAdd` and pkg/types/100/types.go:100-119 `Result.MarshalJSON`. -/
def parseF64 (lit : Bytes) : Option F64 :=
  match scanNum lit with
  | some (p, []) => p.toF64
  | _ => none

/-- Go standard library (strconv, encoding/json): numbers decoded into `interface{}` and printed
again by libcni/conf.go:392-417 `InjectConf`, libcni/api.go:259-297 `CNIConfig.cacheAdd` and
pkg/types/100/types.go:100-119 `Result.MarshalJSON`. -/
def stripZeros (ds : Bytes) : Bytes := (ds.reverse.dropWhile (· = 48)).reverse

/-- `%e` / `%f` layout of digits `ds` with the decimal point after `dp` of them, with the exponent
clean-up of encoding/json (`e-09` becomes `e-9`). Go standard library (strconv, encoding/json):
numbers decoded into `interface{}` and printed again by libcni/conf.go:392-417 `InjectConf`,
libcni/api.go:259-297 `CNIConfig.cacheAdd` and pkg/types/100/types.go:100-119 `Result.MarshalJSON`. -/
def layout (ds : Bytes) (dp : Int) : Bytes :=
  if dp < -5 || 21 < dp then
    let x := dp - 1
    ds.take 1 ++ (if ds.length ≤ 1 then [] else 46 :: ds.drop 1) ++ [101]
      ++ (if x < 0 then [45] else [43]) ++ natDigits x.natAbs
  else if dp ≤ 0 then [48, 46] ++ List.replicate dp.natAbs 48 ++ ds
  else if (ds.length : Int) ≤ dp then ds ++ List.replicate (dp.toNat - ds.length) 48
  else ds.take dp.toNat ++ 46 :: ds.drop dp.toNat

/-- The `j`-digit decimal nearest to `f`, laid out. Go standard library (strconv, encoding/json):
numbers decoded into `interface{}` and printed again by libcni/conf.go:392-417 `InjectConf`,
libcni/api.go:259-297 `CNIConfig.cacheAdd` and pkg/types/100/types.go:100-119 `Result.MarshalJSON`. -/
def F64.cand (f : F64) (j : Nat) : Bytes :=
  let V := f.m * 2 ^ f.k
  let p : Int := ((natDigits (V * 10 ^ 400 / 2 ^ 1074)).length : Int) - 401
  let c := match p - j + 1 with
    | .ofNat e => rhe V (2 ^ 1074 * 10 ^ e)
    | .negSucc e => rhe (V * 10 ^ (e + 1)) (2 ^ 1074)
  let ds := natDigits c
  (if f.neg then [45] else []) ++ layout (stripZeros ds) (ds.length + (p - j + 1))

/-- `strconv.FormatFloat(f, fmt, -1, 64)` as called by encoding/json: exact integers below `2^53`
are printed digit by digit (strconv/ftoaryu.go ryuFtoaShortest), everything else with the fewest
digits that read back as `f`. Simplifications: among the shortest candidates the one nearest to `f`
is taken (Go may differ in the last digit next to a power of two, never in the value read back), and
the last alternative, which 17 digits always make unreachable, prints the exact decimal. -/
def F64.fmt (f : F64) : Bytes :=
  if f.k ≤ 1074 ∧ f.m % 2 ^ (1074 - f.k) = 0 then
    (if f.neg then [45] else []) ++ natDigits (f.m / 2 ^ (1074 - f.k))
  else match (List.range 17).find? fun j => parseF64 (f.cand (j + 1)) = some f with
    | some j => f.cand (j + 1)
    | none => (if f.neg then [45] else []) ++ natDigits (f.m * 2 ^ f.k * 5 ^ 1074) ++ b!"e-1074"

/-- A number literal after one trip through float64: what `json.Marshal` prints for the
`interface{}` that `json.Unmarshal` made of it; `none` when Unmarshal reports a range error. Go
standard library (strconv, encoding/json): numbers decoded into `interface{}` and printed again by
libcni/conf.go:392-417 `InjectConf`, libcni/api.go:259-297 `CNIConfig.cacheAdd` and
pkg/types/100/types.go:100-119 `Result.MarshalJSON`. -/
def normNum (lit : Bytes) : Option Bytes := (parseF64 lit).map F64.fmt

/-! ### rounding -/

theorem rhe_exact {D : Nat} (hD : 0 < D) (q : Nat) : rhe (q * D) D = q := by
  unfold rhe
  simp [Nat.mul_div_cancel _ hD, Nat.mul_mod_left, hD]

theorem rhe_bounds (N D : Nat) : N / D ≤ rhe N D ∧ rhe N D ≤ N / D + 1 := by
  unfold rhe; simp only []
  split
  · omega
  · split <;> omega

theorem log2_lower {q : Nat} (h : q ≠ 0) : 2 ^ Nat.log2 q ≤ q := (Nat.log2_eq_iff h).1 rfl |>.1
theorem log2_upper (q : Nat) : q < 2 ^ (Nat.log2 q + 1) := Nat.lt_log2_self ..

theorem roundRat_canon {neg : Bool} {num den : Nat} {f : F64}
    (h : roundRat neg num den = some f) : f.Canon := by
  unfold roundRat at h
  generalize hN : num * 2 ^ 1074 = N at h
  simp only [] at h
  generalize hk : Nat.log2 (N / den) - 52 = k0 at h
  have hb := rhe_bounds N (den * 2 ^ k0)
  rw [← Nat.div_div_eq_div_mul] at hb
  generalize hq : N / den = q at hb hk
  generalize rhe N (den * 2 ^ k0) = m0 at hb h
  have hup : q / 2 ^ k0 < 2 ^ 53 := by
    apply Nat.div_lt_of_lt_mul
    have := log2_upper q
    have h2 : 2 ^ (Nat.log2 q + 1) ≤ 2 ^ (k0 + 53) := Nat.pow_le_pow_right (by decide) (by omega)
    rw [Nat.pow_add 2 k0 53] at h2
    exact Nat.lt_of_lt_of_le this h2
  have hlow : k0 ≠ 0 → 2 ^ 52 ≤ q / 2 ^ k0 := by
    intro hk0
    have hq0 : q ≠ 0 := by
      intro e; subst e; simp at hk; exact hk0 hk.symm
    have h1 := log2_lower hq0
    rw [Nat.le_div_iff_mul_le (Nat.pos_of_ne_zero (by simp))]
    rw [← Nat.pow_add]
    have : 52 + k0 = Nat.log2 q := by omega
    rw [this]; exact h1
  split at h
  · simp only [Option.ite_none_right_eq_some, Option.some.injEq] at h
    obtain ⟨hle, rfl⟩ := h
    exact ⟨by simp, hle, Or.inr (Nat.le_refl _)⟩
  · rename_i hm
    simp only [Option.ite_none_right_eq_some, Option.some.injEq] at h
    obtain ⟨hle, rfl⟩ := h
    refine ⟨?_, hle, ?_⟩
    · simp only []; omega
    · by_cases h0 : k0 = 0
      · exact Or.inl h0
      · have := hlow h0; right; simp only []; omega

theorem log2_of_bounds {q L : Nat} (h1 : 2 ^ L ≤ q) (h2 : q < 2 ^ (L + 1)) : Nat.log2 q = L :=
  (Nat.log2_eq_iff (by have := Nat.two_pow_pos L; omega)).2 ⟨h1, h2⟩

/-- A value that is exactly a binary64 rounds to itself. -/
theorem roundRat_exact {f : F64} (hc : f.Canon) {num den : Nat} (hd : 0 < den)
    (he : num * 2 ^ 1074 = f.m * 2 ^ f.k * den) : roundRat f.neg num den = some f := by
  obtain ⟨neg, m, k⟩ := f
  obtain ⟨h1, h2, h3⟩ := hc
  simp only [] at *
  unfold roundRat
  rw [he]
  simp only []
  rw [Nat.mul_div_cancel _ hd]
  have hk0 : Nat.log2 (m * 2 ^ k) - 52 = k := by
    by_cases hm : 2 ^ 52 ≤ m
    · have : Nat.log2 (m * 2 ^ k) = 52 + k := by
        apply log2_of_bounds
        · rw [Nat.pow_add]; exact Nat.mul_le_mul_right _ hm
        · rw [show 52 + k + 1 = 53 + k by omega, Nat.pow_add]
          exact Nat.mul_lt_mul_of_pos_right h1 (Nat.two_pow_pos k)
      omega
    · have hk : k = 0 := by omega
      subst hk
      simp only [Nat.pow_zero, Nat.mul_one]
      by_cases hm0 : m = 0
      · subst hm0; decide
      · have := log2_lower hm0
        have h5 : Nat.log2 m < 53 := by
          apply Decidable.byContradiction; intro hh
          have : 2 ^ 53 ≤ 2 ^ Nat.log2 m := Nat.pow_le_pow_right (by decide) (by omega)
          omega
        omega
  rw [hk0]
  have : m * 2 ^ k * den = m * (den * 2 ^ k) := by
    rw [Nat.mul_assoc, Nat.mul_comm (2 ^ k)]
  rw [this, rhe_exact (Nat.mul_pos hd (Nat.two_pow_pos k))]
  have hne : m ≠ 2 ^ 53 := by omega
  simp only [hne, if_false, h2, if_true]

theorem NumParts.toF64_canon {p : NumParts} {f : F64} (h : p.toF64 = some f) : f.Canon := by
  unfold NumParts.toF64 at h
  simp only [] at h
  split at h
  · exact roundRat_canon h
  · exact roundRat_canon h

theorem parseF64_canon {l : Bytes} {f : F64} (h : parseF64 l = some f) : f.Canon := by
  unfold parseF64 at h
  split at h
  · exact NumParts.toF64_canon h
  · simp at h

/-! ### printing -/

theorem takeWhile_all {p : UInt8 → Bool} {l : Bytes} (h : ∀ c ∈ l, p c = true) :
    l.takeWhile p = l ∧ l.dropWhile p = [] := by
  induction l with
  | nil => simp
  | cons c l ih =>
    have := h c (by simp)
    have := ih (fun x hx => h x (by simp [hx]))
    simp [*]

theorem natDigits_zero : natDigits 0 = [48] := by decide

theorem scanInt_natDigits (n : Nat) (r : Bytes) (hr : ∀ c ∈ r.head?, isDigit c = false) :
    scanInt (natDigits n ++ r) = some (natDigits n, r) := by
  by_cases hn : n = 0
  · subst hn; rw [natDigits_zero]; simp [scanInt]
  · obtain ⟨c, t, e, hc, hd⟩ := natDigits_head n (by omega)
    have hall := takeWhile_all (natDigits_digits n)
    have ha := takeWhile_append_delim (natDigits n) r hall.2 hr
    rw [hall.1] at ha
    rw [e] at ha ⊢
    simp only [List.cons_append] at ha ⊢
    simp only [scanInt, hc, hd, if_true, if_false]
    rw [ha.1, ha.2]

/-- The literal of an integer, optionally negative, followed by an exponent text. -/
theorem scanNum_int (neg : Bool) (n : Nat) (ex : Bytes) (hx : scanExp ex = some (ex, []))
    (hr : ∀ c ∈ ex.head?, isDigit c = false ∧ c ≠ 46) :
    scanNum ((if neg then [45] else []) ++ natDigits n ++ ex) = some (⟨neg, natDigits n, [], ex⟩, []) := by
  have h1 := scanInt_natDigits n ex (fun c hc => (hr c hc).1)
  have h2 : scanFrac ex = some ([], ex) := by
    cases ex with
    | nil => rfl
    | cons c r => have := (hr c (by simp)).2; simp [scanFrac, this]
  have habs : ∀ b, scanAbs b (natDigits n ++ ex) = some (⟨b, natDigits n, [], ex⟩, []) := by
    intro b; simp only [scanAbs, h1, h2, hx]
  cases neg with
  | true => simpa [scanNum] using habs true
  | false =>
    obtain ⟨c, t, e⟩ : ∃ c t, natDigits n = c :: t := by
      cases hh : natDigits n with
      | nil => exact absurd hh (natDigits_ne_nil n)
      | cons c t => exact ⟨c, t, rfl⟩
    have hd : isDigit c = true := natDigits_digits n c (by rw [e]; simp)
    have hc : c ≠ 45 := by intro h; subst h; simp [isDigit] at hd
    have := habs false
    rw [e] at this ⊢
    simp only [Bool.false_eq_true, if_false, List.nil_append, List.cons_append, scanNum, hc] at this ⊢
    exact this

/-- **FormatFloat/ParseFloat round trip**: what is printed for a float64 reads back as it. -/
theorem parseF64_fmt {f : F64} (hc : f.Canon) : parseF64 f.fmt = some f := by
  unfold F64.fmt
  split
  · rename_i h
    have hs := scanNum_int f.neg (f.m / 2 ^ (1074 - f.k)) [] rfl (by simp)
    simp only [List.append_nil] at hs
    simp only [parseF64, hs, NumParts.toF64, expVal]
    simp only [List.append_nil, digitsVal_natDigits, List.length_nil]
    show roundRat f.neg (f.m / 2 ^ (1074 - f.k) * 10 ^ 0) 1 = some f
    apply roundRat_exact hc (by decide)
    have hm : f.m / 2 ^ (1074 - f.k) * 2 ^ (1074 - f.k) = f.m := Nat.div_mul_cancel (Nat.dvd_of_mod_eq_zero h.2)
    have hp : (2 : Nat) ^ 1074 = 2 ^ (1074 - f.k) * 2 ^ f.k := by rw [← Nat.pow_add]; congr 1; omega
    rw [hp]
    calc f.m / 2 ^ (1074 - f.k) * 10 ^ 0 * (2 ^ (1074 - f.k) * 2 ^ f.k)
        = (f.m / 2 ^ (1074 - f.k) * 2 ^ (1074 - f.k)) * 2 ^ f.k := by
          rw [Nat.pow_zero, Nat.mul_one, Nat.mul_assoc]
      _ = f.m * 2 ^ f.k * 1 := by rw [hm, Nat.mul_one]
  · split
    · rename_i j hj
      simpa using List.find?_some hj
    · have hs := scanNum_int f.neg (f.m * 2 ^ f.k * 5 ^ 1074) b!"e-1074" (by decide) (by simp; decide)
      simp only [parseF64, hs, NumParts.toF64]
      simp only [List.append_nil, digitsVal_natDigits, List.length_nil]
      have he : expVal b!"e-1074" - ((0 : Nat) : Int) = Int.negSucc 1073 := by decide
      rw [he]
      simp only []
      apply roundRat_exact hc (Nat.pow_pos (by decide))
      have : (10 : Nat) ^ (1073 + 1) = 5 ^ 1074 * 2 ^ 1074 := by
        rw [← Nat.mul_pow]
      rw [this]
      simp only [Nat.mul_assoc]

theorem numValid_of_parseF64 {l : Bytes} {f : F64} (h : parseF64 l = some f) : numValid l = true := by
  unfold parseF64 at h
  split at h
  · rename_i p hp; exact numValid_iff.2 ⟨p, hp⟩
  · simp at h

theorem numValid_fmt {f : F64} (hc : f.Canon) : numValid f.fmt = true :=
  numValid_of_parseF64 (parseF64_fmt hc)

theorem normNum_valid {l l' : Bytes} (h : normNum l = some l') : numValid l' = true := by
  simp only [normNum, Option.map_eq_some_iff] at h
  obtain ⟨f, hf, rfl⟩ := h
  exact numValid_fmt (parseF64_canon hf)

/-- Normalising a number twice is normalising it once. -/
theorem normNum_idem {l l' : Bytes} (h : normNum l = some l') : normNum l' = some l' := by
  simp only [normNum, Option.map_eq_some_iff] at h
  obtain ⟨f, hf, rfl⟩ := h
  simp [normNum, parseF64_fmt (parseF64_canon hf)]

theorem itoa_eq (n : Int) : itoa n = (if n < 0 then [45] else []) ++ natDigits n.natAbs := by
  cases n with
  | ofNat n => simp [itoa]
  | negSucc n => simp [itoa, Int.natAbs_negSucc, Int.negSucc_lt_zero]

theorem numValid_itoa (n : Int) : numValid (itoa n) = true := by
  rw [itoa_eq]
  have := scanNum_int (decide (n < 0)) n.natAbs [] rfl (by simp)
  simp only [List.append_nil, decide_eq_true_eq] at this
  exact numValid_iff.2 ⟨_, this⟩

/-- The float64 of an integer below `2^53` in magnitude prints as that integer. -/
theorem normNum_itoa {n : Int} (h : n.natAbs < 2 ^ 53) : normNum (itoa n) = some (itoa n) := by
  rw [itoa_eq]
  have hs := scanNum_int (decide (n < 0)) n.natAbs [] rfl (by simp)
  simp only [List.append_nil, decide_eq_true_eq] at hs
  generalize hx : n.natAbs = x at *
  -- the representation of `x`
  have key : ∃ f : F64, f.Canon ∧ f.neg = decide (n < 0) ∧ f.k ≤ 1074 ∧ f.m = x * 2 ^ (1074 - f.k) := by
    by_cases hx0 : x = 0
    · exact ⟨⟨_, 0, 0⟩, ⟨Nat.two_pow_pos 53, Nat.zero_le _, Or.inl rfl⟩, rfl, Nat.zero_le _, by rw [hx0, Nat.zero_mul]⟩
    · have hl := log2_lower hx0
      have hu := log2_upper x
      have hlt : Nat.log2 x < 53 := by
        apply Decidable.byContradiction; intro hh
        have : 2 ^ 53 ≤ 2 ^ Nat.log2 x := Nat.pow_le_pow_right (by decide) (by omega)
        omega
      refine ⟨⟨_, x * 2 ^ (52 - Nat.log2 x), 1022 + Nat.log2 x⟩, ⟨?_, ?_, Or.inr ?_⟩, rfl, ?_, ?_⟩
      · have : x * 2 ^ (52 - Nat.log2 x) < 2 ^ (Nat.log2 x + 1) * 2 ^ (52 - Nat.log2 x) :=
          Nat.mul_lt_mul_of_pos_right hu (Nat.two_pow_pos _)
        rw [← Nat.pow_add] at this
        rw [show Nat.log2 x + 1 + (52 - Nat.log2 x) = 53 by omega] at this
        exact this
      · simp only []; omega
      · have : 2 ^ Nat.log2 x * 2 ^ (52 - Nat.log2 x) ≤ x * 2 ^ (52 - Nat.log2 x) :=
          Nat.mul_le_mul_right _ hl
        rw [← Nat.pow_add] at this
        rw [show Nat.log2 x + (52 - Nat.log2 x) = 52 by omega] at this
        exact this
      · simp only []; omega
      · simp only []; congr 2; omega
  obtain ⟨f, hc, hn, hk, hm⟩ := key
  have hp : (2 : Nat) ^ 1074 = 2 ^ (1074 - f.k) * 2 ^ f.k := by rw [← Nat.pow_add]; congr 1; omega
  have hr : roundRat (decide (n < 0)) (x * 10 ^ 0) 1 = some f := by
    rw [← hn]
    apply roundRat_exact hc (by decide)
    rw [hp, hm, Nat.pow_zero, Nat.mul_one, Nat.mul_one, Nat.mul_assoc]
  have hparse : parseF64 ((if n < 0 then [45] else []) ++ natDigits x) = some f := by
    simp only [parseF64, hs, NumParts.toF64, expVal]
    simp only [List.append_nil, digitsVal_natDigits, List.length_nil]
    exact hr
  simp only [normNum, hparse, Option.map_some, Option.some.injEq]
  unfold F64.fmt
  rw [if_pos ⟨hk, by rw [hm]; exact Nat.mul_mod_left _ _⟩, hm, Nat.mul_div_cancel _ (Nat.two_pow_pos _), hn]
  simp

/-! Tests of the model against known outputs of Go. -/
example : normNum b!"1500" = some b!"1500" := by decide +kernel
example : normNum b!"123456789012345678901234" = some b!"1.2345678901234569e+23" := by decide +kernel
example : normNum b!"9007199254740992" = some b!"9007199254740992" := by decide +kernel
example : normNum b!"9007199254740993" = some b!"9007199254740992" := by decide +kernel
example : normNum b!"1e400" = none := by decide +kernel
example : normNum b!"-0" = some b!"-0" := by decide +kernel

end Verif
