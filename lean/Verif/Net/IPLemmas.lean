/- Address text round trips. -/
import Verif.Net.IP

namespace Verif
set_option linter.unusedSimpArgs false

/-! ### IPv4 -/

theorem natDigits_no {n : Nat} {c : UInt8} (hc : isDigit c = false) : c ∉ natDigits n := by
  intro h; rw [natDigits_digits n c h] at hc; simp at hc

theorem parseOctet_natDigits (x : UInt8) : parseOctet (natDigits x.toNat) = some x := by
  have h1 : natDigits x.toNat ≠ [] := natDigits_ne_nil _
  have h2 : (natDigits x.toNat).any (fun c => !isDigit c) = false := by
    rw [List.any_eq_false]; intro c hc; simp [natDigits_digits _ c hc]
  have h3 : ¬ ((natDigits x.toNat).head? = some 48 ∧ (natDigits x.toNat).length ≠ 1) := by
    rintro ⟨ha, hb⟩
    by_cases hx : x.toNat = 0
    · rw [hx] at hb; simp [natDigits, natDigitsF] at hb
    · obtain ⟨c, t, e, hc, _⟩ := natDigits_head x.toNat (by omega)
      rw [e] at ha; simp at ha; exact hc ha
  have hx := x.toNat_lt
  simp only [parseOctet, h1, h2, Bool.false_eq_true, or_self, if_false, h3, digitsVal_natDigits]
  rw [if_pos (by omega)]
  simp

theorem splitOn_printV4 (b : Bytes) (h : b ≠ []) :
    splitOn 46 (printV4 b) = b.map fun x => natDigits x.toNat := by
  unfold printV4
  apply splitOn_joinWith
  · simpa using h
  · intro p hp
    simp at hp
    obtain ⟨a, _, rfl⟩ := hp
    exact natDigits_no (by decide)

theorem parseV4_print (a b c d : UInt8) : parseV4 (printV4 [a, b, c, d]) = some [a, b, c, d] := by
  simp only [parseV4, splitOn_printV4 [a, b, c, d] (by simp), List.map_cons, List.map_nil,
    parseOctet_natDigits]

theorem printV4_mem {b : Bytes} {x : UInt8} (h : x ∈ printV4 b) : isDigit x = true ∨ x = 46 := by
  induction b with
  | nil => simp [printV4, joinWith] at h
  | cons a b ih =>
    cases b with
    | nil => simp [printV4, joinWith] at h; exact Or.inl (natDigits_digits _ _ h)
    | cons a' b =>
      simp only [printV4, List.map_cons, joinWith, List.mem_append, List.mem_singleton] at h ih
      rcases h with (h | h) | h
      · exact Or.inl (natDigits_digits _ _ h)
      · exact Or.inr h
      · exact ih h

theorem find?_append_first {p : UInt8 → Bool} {s : Bytes} {c : UInt8} {t : Bytes}
    (hs : ∀ x ∈ s, p x = false) (hc : p c = true) : (s ++ c :: t).find? p = some c := by
  induction s with
  | nil => simp [hc]
  | cons a s ih =>
    have := hs a (by simp)
    simp only [List.cons_append, List.find?_cons, this]
    exact ih (fun x hx => hs x (by simp [hx]))

theorem parseAddr_printV4 (a b c d : UInt8) :
    parseAddr (printV4 [a, b, c, d]) = some (v4InV6Prefix ++ [a, b, c, d], 32) := by
  have h37 : (37 : UInt8) ∉ printV4 [a, b, c, d] := by
    intro h; rcases printV4_mem h with h | h <;> revert h <;> decide
  have hf : (printV4 [a, b, c, d]).find? (fun c => decide (c = 46 ∨ c = 58)) = some 46 := by
    have e : printV4 [a, b, c, d] = natDigits a.toNat ++ 46 :: printV4 [b, c, d] := by
      simp [printV4, joinWith]
    rw [e]
    apply find?_append_first
    · intro x hx
      have := natDigits_digits _ _ hx
      simp only [decide_eq_false_iff_not]
      rintro (rfl | rfl) <;> simp [isDigit] at this
    · decide
  simp only [parseAddr, h37, if_false, hf, parseV4_print, Option.map_some]

/-! ### IPv6 -/

theorem hexDigit_facts : ∀ n : Fin 16, hexVal (hexDigit n.val) = some n.val ∧ hexDigit n.val ≠ 58 ∧
    hexDigit n.val ≠ 46 ∧ hexDigit n.val ≠ 37 ∧ hexDigit n.val ≠ 47 ∧ hexDigit n.val < 128 := by decide

theorem hexDigit_fact {n : Nat} (h : n < 16) : hexVal (hexDigit n) = some n ∧ hexDigit n ≠ 58 ∧
    hexDigit n ≠ 46 ∧ hexDigit n ≠ 37 ∧ hexDigit n ≠ 47 ∧ hexDigit n < 128 := hexDigit_facts ⟨n, h⟩

theorem hexDigits_mem {g : Nat} (hg : g < 65536) {c : UInt8} (hc : c ∈ hexDigits g) :
    ∃ n, n < 16 ∧ c = hexDigit n := by
  unfold hexDigits at hc
  split at hc
  · simp at hc; exact ⟨g, by omega, hc⟩
  split at hc
  · simp at hc; rcases hc with rfl | rfl
    · exact ⟨g / 16, by omega, rfl⟩
    · exact ⟨g % 16, by omega, rfl⟩
  split at hc
  · simp at hc; rcases hc with rfl | rfl | rfl
    · exact ⟨g / 256, by omega, rfl⟩
    · exact ⟨g / 16 % 16, by omega, rfl⟩
    · exact ⟨g % 16, by omega, rfl⟩
  · simp at hc; rcases hc with rfl | rfl | rfl | rfl
    · exact ⟨g / 4096, by omega, rfl⟩
    · exact ⟨g / 256 % 16, by omega, rfl⟩
    · exact ⟨g / 16 % 16, by omega, rfl⟩
    · exact ⟨g % 16, by omega, rfl⟩

theorem hexDigits_val {g : Nat} (hg : g < 65536) :
    (hexDigits g).foldl (fun a c => a * 16 + (hexVal c).getD 0) 0 = g := by
  unfold hexDigits
  split
  · simp [(hexDigit_fact (n := g) (by omega)).1]
  split
  · simp [(hexDigit_fact (n := g / 16) (by omega)).1, (hexDigit_fact (n := g % 16) (by omega)).1]; omega
  split
  · simp [(hexDigit_fact (n := g / 256) (by omega)).1, (hexDigit_fact (n := g / 16 % 16) (by omega)).1,
      (hexDigit_fact (n := g % 16) (by omega)).1]; omega
  · simp [(hexDigit_fact (n := g / 4096) (by omega)).1, (hexDigit_fact (n := g / 256 % 16) (by omega)).1,
      (hexDigit_fact (n := g / 16 % 16) (by omega)).1,
      (hexDigit_fact (n := g % 16) (by omega)).1]; omega

theorem hexDigits_len (g : Nat) : hexDigits g ≠ [] ∧ (hexDigits g).length ≤ 4 := by
  unfold hexDigits
  repeat' split
  all_goals simp

theorem scanHex_hexDigits {g : Nat} (hg : g < 65536) (r : Bytes)
    (hr : ∀ c ∈ r.head?, (hexVal c).isSome = false) :
    scanHex (hexDigits g ++ r) = some (g, r) := by
  have hall : ∀ c ∈ hexDigits g, (hexVal c).isSome = true := by
    intro c hc
    obtain ⟨n, hn, rfl⟩ := hexDigits_mem hg hc
    simp [(hexDigit_fact hn).1]
  have h1 : (hexDigits g).dropWhile (fun c => (hexVal c).isSome) = [] ∧
      (hexDigits g).takeWhile (fun c => (hexVal c).isSome) = hexDigits g := by
    generalize hexDigits g = l at hall
    induction l with
    | nil => simp
    | cons a l ih =>
      have := ih (fun c hc => hall c (by simp [hc]))
      simp [hall a (by simp), this]
  have h2 := takeWhile_append_delim (p := fun c => (hexVal c).isSome) (hexDigits g) r h1.1 hr
  rw [h1.2] at h2
  have hl := hexDigits_len g
  simp only [scanHex, h2.1]
  rw [if_neg (by rintro (h | h); exact hl.1 h; omega), hexDigits_val hg]
  simp

theorem hexVal_colon : (hexVal 58).isSome = false := by decide

theorem hexDigits_cons {g : Nat} (hg : g < 65536) : ∃ c t, hexDigits g = c :: t ∧ c ≠ 58 ∧ c ≠ 46 := by
  cases h : hexDigits g with
  | nil => exact absurd h (hexDigits_len g).1
  | cons c t =>
    obtain ⟨n, hn, e⟩ := hexDigits_mem hg (c := c) (by rw [h]; simp)
    have := hexDigit_fact hn
    exact ⟨c, t, rfl, by rw [e]; exact this.2.1, by rw [e]; exact this.2.2.1⟩

theorem joinWith_cons_cons (sep p q : Bytes) (ps : List Bytes) :
    joinWith sep (p :: q :: ps) = p ++ sep ++ joinWith sep (q :: ps) := rfl

theorem join_head {gs : List Nat} (hne : gs ≠ []) (hg : ∀ g ∈ gs, g < 65536) :
    ∃ c t, joinWith [58] (gs.map hexDigits) = c :: t ∧ c ≠ 58 := by
  cases gs with
  | nil => simp at hne
  | cons g gs =>
    obtain ⟨c, t, e, hc, _⟩ := hexDigits_cons (hg g (by simp))
    cases gs with
    | nil => exact ⟨c, t, by simp [joinWith, e], hc⟩
    | cons g' gs => exact ⟨c, t ++ [58] ++ joinWith [58] (hexDigits g' :: gs.map hexDigits), by simp only [List.map_cons, joinWith_cons_cons, e, List.cons_append], hc⟩

theorem parseV6Loop_join (gs : List Nat) (hne : gs ≠ []) (hg : ∀ g ∈ gs, g < 65536) (n : Nat)
    (hn : gs.length ≤ n) (acc : Bytes) (ell : Option Nat) :
    parseV6Loop n (joinWith [58] (gs.map hexDigits)) acc ell = some (acc ++ ungroup gs, ell) := by
  induction gs generalizing n acc with
  | nil => simp at hne
  | cons g gs ih =>
    cases n with
    | zero => simp at hn
    | succ n =>
      have hg0 := hg g (by simp)
      cases gs with
      | nil =>
        have := scanHex_hexDigits hg0 [] (by simp)
        simp only [List.append_nil] at this
        simp only [List.map_cons, List.map_nil, joinWith, parseV6Loop, this, ungroup]
      | cons g' gs =>
        obtain ⟨c, t, e, hc⟩ := join_head (gs := g' :: gs) (by simp) (fun x hx => hg x (by simp [List.mem_cons.1 hx]))
        have := scanHex_hexDigits hg0 (58 :: joinWith [58] ((g' :: gs).map hexDigits)) (by simp only [List.head?_cons, Option.mem_def, Option.some.injEq]; rintro c rfl; exact hexVal_colon)
        simp only [List.map_cons, joinWith_cons_cons, List.append_assoc, List.cons_append, List.nil_append]
        simp only [List.map_cons] at this
        have hrec := ih (by simp) (fun x hx => hg x (by simp [List.mem_cons.1 hx])) n (by simp at hn ⊢; omega)
          (acc ++ [UInt8.ofNat (g / 256), UInt8.ofNat (g % 256)])
        simp only [List.map_cons] at hrec e
        simp only [parseV6Loop, this]
        rw [e] at hrec ⊢
        simp only [show ¬ ((58 : UInt8) = 46) by decide, if_false, ne_eq, not_true_eq_false, hc]
        rw [hrec]
        simp [ungroup]

theorem parseV6Loop_ell (pre post : List Nat) (hne : pre ≠ []) (hg : ∀ g ∈ pre, g < 65536)
    (hg' : ∀ g ∈ post, g < 65536) (n : Nat) (hn : pre.length + post.length ≤ n) (acc : Bytes) :
    parseV6Loop n (joinWith [58] (pre.map hexDigits) ++ [58, 58] ++ joinWith [58] (post.map hexDigits)) acc none
      = some (acc ++ ungroup pre ++ ungroup post, some (acc.length + 2 * pre.length)) := by
  induction pre generalizing n acc with
  | nil => simp at hne
  | cons g pre ih =>
    cases n with
    | zero => simp at hn
    | succ n =>
      have hg0 := hg g (by simp)
      cases pre with
      | nil =>
        have := scanHex_hexDigits hg0 (58 :: 58 :: joinWith [58] (post.map hexDigits)) (by simp only [List.head?_cons, Option.mem_def, Option.some.injEq]; rintro c rfl; exact hexVal_colon)
        simp only [List.map_cons, List.map_nil, joinWith, List.append_assoc, List.cons_append, List.nil_append]
        simp only [parseV6Loop, this]
        simp only [show ¬ ((58 : UInt8) = 46) by decide, if_false, ne_eq, not_true_eq_false, if_true, Option.isSome_none,
          Bool.false_eq_true]
        by_cases hp : post = []
        · subst hp; simp [joinWith, ungroup]
        · obtain ⟨c, t, e, hc⟩ := join_head hp hg'
          have hrec := parseV6Loop_join post hp hg' n (by simp at hn ⊢; omega)
            (acc ++ [UInt8.ofNat (g / 256), UInt8.ofNat (g % 256)])
            (some (acc ++ [UInt8.ofNat (g / 256), UInt8.ofNat (g % 256)]).length)
          rw [if_neg (by rw [e]; simp), hrec]
          simp [ungroup]
      | cons g' pre =>
        obtain ⟨c, t, e, hc⟩ := join_head (gs := g' :: pre) (by simp) (fun x hx => hg x (by simp [List.mem_cons.1 hx]))
        have := scanHex_hexDigits hg0 (58 :: (joinWith [58] ((g' :: pre).map hexDigits) ++ ([58, 58] ++ joinWith [58] (post.map hexDigits))))
          (by simp only [List.head?_cons, Option.mem_def, Option.some.injEq]; rintro c rfl; exact hexVal_colon)
        have hrec := ih (by simp) (fun x hx => hg x (by simp [List.mem_cons.1 hx])) n (by simp at hn ⊢; omega)
          (acc ++ [UInt8.ofNat (g / 256), UInt8.ofNat (g % 256)])
        simp only [List.map_cons, joinWith_cons_cons, List.append_assoc, List.cons_append, List.nil_append] at this hrec e ⊢
        simp only [parseV6Loop, this]
        have e2 : hexDigits g' :: List.map hexDigits pre = (g' :: pre).map hexDigits := rfl
        rw [e] at hrec ⊢
        simp only [List.cons_append] at hrec ⊢
        simp only [show ¬ ((58 : UInt8) = 46) by decide, if_false, ne_eq, not_true_eq_false, hc]
        rw [hrec]
        simp [ungroup]; omega

theorem zeroRun_spec (gs : List Nat) : zeroRun gs ≤ gs.length ∧ gs.take (zeroRun gs) = List.replicate (zeroRun gs) 0 := by
  fun_induction zeroRun gs with
  | case1 r ih => simp [ih.1, ih.2, List.replicate_succ]
  | case2 => simp

/-- The run `bestRun` finds is a run of zeros inside the groups. -/
theorem bestRun_spec (i : Nat) (gs whole : List Nat) (best : Nat × Nat)
    (hw : whole.drop i = gs)
    (hb : best.1 + best.2 ≤ whole.length ∧ (whole.drop best.1).take best.2 = List.replicate best.2 0) :
    let r := bestRun i gs best
    r.1 + r.2 ≤ whole.length ∧ (whole.drop r.1).take r.2 = List.replicate r.2 0 := by
  induction gs generalizing i best with
  | nil => simpa [bestRun] using hb
  | cons g gs ih =>
    simp only [bestRun]
    apply ih
    · rw [← List.tail_drop, hw]; rfl
    · split
      · have hz := zeroRun_spec (g :: gs)
        have hl : (whole.drop i).length = (g :: gs).length := by rw [hw]
        simp only [List.length_drop] at hl
        refine ⟨?_, ?_⟩
        · simp only []
          have : (g :: gs).length ≤ whole.length - i := by omega
          simp only [List.length_cons] at *
          omega
        · simp only [hw]; exact hz.2
      · exact hb

theorem groups_lt (b : Bytes) : ∀ g ∈ groups b, g < 65536 := by
  fun_induction groups b with
  | case1 a b r ih =>
    intro g hg
    simp at hg
    rcases hg with rfl | hg
    · have := a.toNat_lt; have := b.toNat_lt; omega
    · exact ih g hg
  | case2 => simp

theorem ungroup_groups (b : Bytes) (h : b.length % 2 = 0) : ungroup (groups b) = b := by
  fun_induction groups b with
  | case1 a b r ih =>
    have ha := a.toNat_lt; have hb := b.toNat_lt
    simp at h
    have h1 : (a.toNat * 256 + b.toNat) / 256 = a.toNat := by omega
    have h2 : (a.toNat * 256 + b.toNat) % 256 = b.toNat := by omega
    simp [ungroup, ih (by omega), h1, h2]
  | case2 t hn =>
    match t, hn, h with
    | [], _, _ => rfl
    | [a], _, h => simp at h
    | a :: b :: r, hn, _ => exact absurd rfl (hn a b r)

theorem groups_length (b : Bytes) : (groups b).length = b.length / 2 := by
  fun_induction groups b with
  | case1 a b r ih => simp [ih]; omega
  | case2 t hn =>
    match t, hn with
    | [], _ => rfl
    | [a], _ => simp
    | a :: b :: r, hn => exact absurd rfl (hn a b r)

theorem ungroup_append (a b : List Nat) : ungroup (a ++ b) = ungroup a ++ ungroup b := by
  induction a with
  | nil => rfl
  | cons g a ih => simp [ungroup, ih]

theorem ungroup_length (a : List Nat) : (ungroup a).length = 2 * a.length := by
  induction a with
  | nil => rfl
  | cons g a ih => simp [ungroup, ih]; omega

theorem ungroup_zeros (n : Nat) : ungroup (List.replicate n 0) = List.replicate (2 * n) 0 := by
  induction n with
  | zero => rfl
  | succ n ih =>
    rw [List.replicate_succ, ungroup, ih, show 2 * (n + 1) = 2 * n + 1 + 1 by omega,
      List.replicate_succ, List.replicate_succ]
    rfl

theorem parseV6Start_eq {s : Bytes} (h : ∀ r, s ≠ 58 :: 58 :: r) :
    parseV6Start s = parseV6Loop 8 s [] none := by
  unfold parseV6Start
  split
  · exact absurd rfl (h _)
  · rfl

/-- **IPv6 text round trip** for every 16-byte address. -/
theorem parseV6_print (b : Bytes) (hb : b.length = 16) : parseV6 (printV6 b) = some b := by
  have hlen : (groups b).length = 8 := by rw [groups_length, hb]
  have hlt := groups_lt b
  have hug : ungroup (groups b) = b := ungroup_groups b (by omega)
  have hrun := bestRun_spec 0 (groups b) (groups b) (0, 0) rfl (by simp)
  simp only [] at hrun
  unfold printV6
  simp only []
  generalize bestRun 0 (groups b) (0, 0) = run at hrun
  obtain ⟨i, l⟩ := run
  simp only [] at hrun ⊢
  generalize hgs : groups b = gs at *
  split
  · -- no run
    have hne : gs ≠ [] := by intro h; simp [h] at hlen
    have hj := parseV6Loop_join gs hne hlt 8 (by omega) [] none
    obtain ⟨c, t, e, hc⟩ := join_head hne hlt
    rw [parseV6, parseV6Start_eq (by intro r h; rw [e] at h; simp at h; exact hc h.1), hj]
    simp [parseV6Finish, hug, hb]
  · rename_i hl
    have hpre : ∀ g ∈ gs.take i, g < 65536 := fun g hg => hlt g (List.mem_of_mem_take hg)
    have hpost : ∀ g ∈ gs.drop (i + l), g < 65536 := fun g hg => hlt g (List.mem_of_mem_drop hg)
    have hsplit : gs = gs.take i ++ List.replicate l 0 ++ gs.drop (i + l) := by
      have h1 : gs = gs.take i ++ gs.drop i := (List.take_append_drop i gs).symm
      have h2 : gs.drop i = (gs.drop i).take l ++ (gs.drop i).drop l := (List.take_append_drop l _).symm
      rw [hrun.2, List.drop_drop] at h2
      rw [List.append_assoc, ← h2, ← h1]
    have hlpre : (gs.take i).length = i := by simp; omega
    have hlpost : (gs.drop (i + l)).length = 8 - (i + l) := by simp [hlen]
    generalize hp1 : gs.take i = pre at *
    generalize hp2 : gs.drop (i + l) = post at *
    have hfin : (ungroup pre ++ ungroup post).length < 16 := by
      simp [ungroup_length]; omega
    have hres : (ungroup pre ++ ungroup post).take (2 * i) ++
        List.replicate (16 - (ungroup pre ++ ungroup post).length) 0 ++ (ungroup pre ++ ungroup post).drop (2 * i) = b := by
      have hlu : (ungroup pre).length = 2 * i := by rw [ungroup_length, hlpre]
      rw [← hlu, List.take_left, List.drop_left]
      rw [List.length_append, ungroup_length, ungroup_length, hlpre, hlpost]
      rw [show 16 - (2 * i + 2 * (8 - (i + l))) = 2 * l by omega, ← ungroup_zeros, ← ungroup_append,
        ← ungroup_append, ← hsplit, hug]
    by_cases hpn : pre = []
    · subst hpn
      simp only [List.map_nil, joinWith, List.nil_append, List.cons_append]
      simp at hlpre
      subst hlpre
      unfold parseV6
      simp only [parseV6Start]
      by_cases hpo : post = []
      · subst hpo
        simp only [List.map_nil, joinWith, if_true, parseV6Finish]
        simp only [ungroup, List.append_nil, List.length_nil] at hres
        simp only [List.length_nil, show (0:Nat) < 16 by decide, if_true, Option.some.injEq]
        simpa using hres
      · obtain ⟨c, t, e, hc⟩ := join_head hpo hpost
        have hj := parseV6Loop_join post hpo hpost 8 (by omega) [] (some 0)
        rw [if_neg (by rw [e]; simp), hj]
        simp only [ungroup, List.nil_append, Nat.mul_zero, parseV6Finish] at hres hfin ⊢
        rw [if_pos hfin, Option.some.injEq]
        exact hres
    · have hj := parseV6Loop_ell pre post hpn hpre hpost 8 (by omega) []
      obtain ⟨c, t, e, hc⟩ := join_head hpn hpre
      rw [parseV6, parseV6Start_eq (by intro r h; rw [e] at h; simp at h; exact hc h.1), hj]
      simp only [List.nil_append, List.length_nil, Nat.zero_add, hlpre, parseV6Finish]
      rw [if_pos hfin, Option.some.injEq]
      exact hres

theorem join_mem {gs : List Nat} (hg : ∀ g ∈ gs, g < 65536) {x : UInt8}
    (h : x ∈ joinWith [58] (gs.map hexDigits)) : x = 58 ∨ ∃ n, n < 16 ∧ x = hexDigit n := by
  induction gs with
  | nil => simp [joinWith] at h
  | cons g gs ih =>
    cases gs with
    | nil => simp [joinWith] at h; exact Or.inr (hexDigits_mem (hg g (by simp)) h)
    | cons g' gs =>
      simp only [List.map_cons, joinWith_cons_cons, List.mem_append, List.mem_singleton] at h ih
      rcases h with (h | h) | h
      · exact Or.inr (hexDigits_mem (hg g (by simp)) h)
      · exact Or.inl h
      · exact ih (fun x hx => hg x (by simp at hx ⊢; exact Or.inr hx)) h

theorem printV6_mem {b : Bytes} {x : UInt8} (h : x ∈ printV6 b) : x = 58 ∨ ∃ n, n < 16 ∧ x = hexDigit n := by
  have hlt := groups_lt b
  unfold printV6 at h
  simp only [] at h
  split at h
  · exact join_mem hlt h
  · simp only [List.mem_append] at h
    rcases h with (h | h) | h
    · exact join_mem (fun g hg => hlt g (List.mem_of_mem_take hg)) h
    · simp at h; exact Or.inl h
    · exact join_mem (fun g hg => hlt g (List.mem_of_mem_drop hg)) h

theorem printV6_colon {b : Bytes} (hb : b.length = 16) : (58 : UInt8) ∈ printV6 b := by
  have hlen : (groups b).length = 8 := by rw [groups_length, hb]
  unfold printV6
  simp only []
  split
  · match hg : groups b, hlen with
    | g :: g' :: r, _ => simp [List.map_cons, joinWith_cons_cons]
  · simp

theorem find?_first_of_all {p : UInt8 → Bool} {s : Bytes} {c : UInt8} (hc : c ∈ s) (hp : p c = true)
    (h : ∀ x ∈ s, p x = true → x = c) : s.find? p = some c := by
  cases hf : s.find? p with
  | none => rw [List.find?_eq_none] at hf; exact absurd hp (hf c hc)
  | some x =>
    have h1 := List.find?_some hf
    have h2 := List.mem_of_find?_eq_some hf
    rw [h x h2 h1]

theorem parseAddr_printV6 (b : Bytes) (hb : b.length = 16) : parseAddr (printV6 b) = some (b, 128) := by
  have h37 : (37 : UInt8) ∉ printV6 b := by
    intro h
    rcases printV6_mem h with h | ⟨n, hn, e⟩
    · simp at h
    · exact (hexDigit_fact hn).2.2.2.1 e.symm
  have hf : (printV6 b).find? (fun c => decide (c = 46 ∨ c = 58)) = some 58 := by
    apply find?_first_of_all (printV6_colon hb) (by decide)
    intro x hx hp
    rcases printV6_mem hx with h | ⟨n, hn, e⟩
    · exact h
    · simp at hp
      rcases hp with rfl | rfl
      · exact absurd e.symm (hexDigit_fact hn).2.2.1
      · rfl
  simp only [parseAddr, h37, if_false, hf, parseV6_print b hb, Option.map_some]

/-! ### whole addresses -/

/-- The two usable shapes of a parsed address: 16 bytes, v4-mapped or not. -/
theorem to4_cases (ip : IP) (h : ip.length = 16) :
    (∃ a b c d, ip = v4InV6Prefix ++ [a, b, c, d] ∧ IP.to4 ip = some [a, b, c, d]) ∨ IP.to4 ip = none := by
  unfold IP.to4
  rw [if_neg (by omega)]
  by_cases hp : ip.take 12 = v4InV6Prefix
  · left
    have hd : (ip.drop 12).length = 4 := by simp [h]
    match hx : ip.drop 12, hd with
    | [a, b, c, d], _ =>
      refine ⟨a, b, c, d, ?_, ?_⟩
      · rw [← hp, ← hx, List.take_append_drop]
      · rw [if_pos ⟨h, hp⟩]
  · right; rw [if_neg (by rintro ⟨_, h⟩; exact hp h)]

/-- `net.ParseIP(ip.String())` is `ip` for every 16-byte address. -/
theorem parseAddr_str (ip : IP) (h : ip.length = 16) :
    parseAddr (IP.str ip) = some (ip, if (IP.to4 ip).isSome then 32 else 128) := by
  unfold IP.str
  rw [if_neg (by intro e; simp [e] at h), if_neg (by omega)]
  rcases to4_cases ip h with ⟨a, b, c, d, e, h4⟩ | h4
  · rw [h4, e]; simp [parseAddr_printV4]
  · rw [h4]; simp [parseAddr_printV6 ip h]

theorem parseIP_str (ip : IP) (h : ip.length = 16) : parseIP (IP.str ip) = some ip := by
  simp [parseIP, parseAddr_str ip h]

theorem IP.str_ne_nil (ip : IP) (h : ip.length = 16) : IP.str ip ≠ [] := by
  intro e
  have := parseAddr_str ip h
  rw [e] at this
  simp [parseAddr] at this

theorem IP.unmarshal_marshal (ip : IP) (h : ip = [] ∨ ip.length = 16) :
    ∃ s, IP.marshalText ip = some s ∧ IP.unmarshalText s = some ip := by
  rcases h with rfl | h
  · exact ⟨[], rfl, rfl⟩
  · refine ⟨IP.str ip, ?_, ?_⟩
    · unfold IP.marshalText
      rw [if_neg (by intro e; simp [e] at h), if_neg (by omega)]
    · unfold IP.unmarshalText
      rw [if_neg (IP.str_ne_nil ip h), parseIP_str ip h]

/-- Characters of a printed 16-byte address. -/
theorem IP.str_mem {ip : IP} (h : ip.length = 16) {x : UInt8} (hx : x ∈ IP.str ip) : x ≠ 47 ∧ x < 128 := by
  unfold IP.str at hx
  rw [if_neg (by intro e; simp [e] at h), if_neg (by omega)] at hx
  split at hx
  · rcases printV4_mem hx with h | rfl
    · refine ⟨by rintro rfl; simp [isDigit] at h, ?_⟩
      simp only [isDigit, Bool.and_eq_true, decide_eq_true_eq] at h
      exact Nat.lt_of_le_of_lt h.2 (by decide)
    · decide
  · rcases printV6_mem hx with rfl | ⟨n, hn, rfl⟩
    · decide
    · exact ⟨(hexDigit_fact hn).2.2.2.2.1, (hexDigit_fact hn).2.2.2.2.2⟩

/-! ### masks -/

theorem partialMask_lead : ∀ k : Fin 8, leadOnes (partialMask k.val) = some k.val ∧ partialMask k.val ≠ 255 := by decide

theorem maskLen_cidrMask (l n : Nat) (h : n ≤ 8 * l) : maskLen (cidrMask l n) = some n := by
  induction l generalizing n with
  | zero => have : n = 0 := by omega
            subst this; rfl
  | succ l ih =>
    simp only [cidrMask]
    split
    · simp only [maskLen, if_true, ih (n - 8) (by omega), Option.map_some, Option.some.injEq]; omega
    · have := partialMask_lead ⟨n, by omega⟩
      simp only [] at this
      simp [maskLen, this.1, this.2]

theorem cidrMask_length (l n : Nat) : (cidrMask l n).length = l := by
  induction l generalizing n with
  | zero => rfl
  | succ l ih => simp only [cidrMask]; split <;> simp [ih]

theorem cutSlash_append (a m : Bytes) (h : (47 : UInt8) ∉ a) : cutSlash (a ++ 47 :: m) = some (a, m) := by
  induction a with
  | nil => simp [cutSlash]
  | cons c a ih =>
    have hc : c ≠ 47 := by rintro rfl; simp at h
    simp only [List.cons_append, cutSlash, hc, if_false, ih (by intro hh; exact h (by simp [hh])), Option.map_some]

/-- The networks `ParseCIDR` returns for addresses that are not v4-in-v6 text: 16-byte address,
contiguous mask of the address family's length. Proof device: models no code. -/
def IPNet.Canon (n : IPNet) : Prop :=
  n.ip.length = 16 ∧
  ∃ p, if (IP.to4 n.ip).isSome then p ≤ 32 ∧ n.mask = cidrMask 4 p else p ≤ 128 ∧ n.mask = cidrMask 16 p

theorem IP.str_v4 (a b c d : UInt8) : IP.str [a, b, c, d] = IP.str (v4InV6Prefix ++ [a, b, c, d]) := by
  simp [IP.str, IP.to4, v4InV6Prefix]

/-- Printed form of a canonical network. -/
theorem IPNet.Canon.str_eq {n : IPNet} (h : n.Canon) :
    ∃ p, IPNet.str n = IP.str n.ip ++ [47] ++ natDigits p ∧
      if (IP.to4 n.ip).isSome then p ≤ 32 ∧ n.mask = cidrMask 4 p else p ≤ 128 ∧ n.mask = cidrMask 16 p := by
  obtain ⟨h16, p, hp⟩ := h
  refine ⟨p, ?_, hp⟩
  rcases to4_cases n.ip h16 with ⟨a, b, c, d, e, h4⟩ | h4
  · rw [h4] at hp
    simp only [Option.isSome_some, if_true] at hp
    have hn : n.norm = some ([a, b, c, d], cidrMask 4 p) := by
      simp [IPNet.norm, h4, hp.2, cidrMask_length]
    simp only [IPNet.str, hn, maskLen_cidrMask 4 p hp.1, IP.str_v4, e]
  · rw [h4] at hp
    simp only [Option.isSome_none, Bool.false_eq_true, if_false] at hp
    have hn : n.norm = some (n.ip, cidrMask 16 p) := by
      simp [IPNet.norm, h4, hp.2, cidrMask_length, h16]
    simp only [IPNet.str, hn, maskLen_cidrMask 16 p hp.1]

/-- **CIDR text round trip.** -/
theorem parseCIDR_str {n : IPNet} (h : n.Canon) : parseCIDR (IPNet.str n) = some n := by
  obtain ⟨p, hs, hp⟩ := h.str_eq
  rw [hs, List.append_assoc]
  have h16 := h.1
  simp only [parseCIDR, List.cons_append, List.nil_append,
    cutSlash_append _ _ (fun hh => (IP.str_mem h16 hh).1 rfl), parseAddr_str n.ip h16]
  have hd : ¬ (natDigits p = [] ∨ (natDigits p).any (fun c => !isDigit c) = true) := by
    rintro (h | h)
    · exact natDigits_ne_nil p h
    · rw [List.any_eq_true] at h
      obtain ⟨c, hc, h⟩ := h
      simp [natDigits_digits p c hc] at h
  rw [if_neg hd, digitsVal_natDigits]
  obtain ⟨ip, mask⟩ := n
  simp only [] at hp ⊢
  split at hp
  · rename_i hi
    simp only [hi, if_true]
    rw [if_neg (by omega), hp.2]
  · rename_i hi
    simp only [hi]
    rw [if_neg (by simp; omega), hp.2]
    simp

theorem parseV4_length {s b : Bytes} (h : parseV4 s = some b) : b.length = 4 := by
  unfold parseV4 at h
  split at h
  · split at h
    · simp at h; rw [← h]; rfl
    · simp at h
  · simp at h

theorem IPNet.Canon.ascii {n : IPNet} (h : n.Canon) : ∀ c ∈ IPNet.str n, c < 128 := by
  obtain ⟨p, hs, _⟩ := h.str_eq
  intro c hc
  rw [hs] at hc
  simp only [List.mem_append, List.mem_singleton] at hc
  rcases hc with (hc | rfl) | hc
  · exact (IP.str_mem h.1 hc).2
  · decide
  · have := natDigits_digits p c hc
    simp only [isDigit, Bool.and_eq_true, decide_eq_true_eq] at this
    exact Nat.lt_of_le_of_lt this.2 (by decide)

end Verif
