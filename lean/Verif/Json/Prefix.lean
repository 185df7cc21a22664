/- No strict prefix of a printed JSON object is a JSON document: a half-written file is never mistaken for a whole one. -/
import Verif.Json.Clean

namespace Verif

/-! ### reading further input after the value has been read -/

theorem skipWs_append {s t : Bytes} {c : UInt8} {r : Bytes} (h : skipWs s = c :: r) :
    skipWs (s ++ t) = c :: (r ++ t) := by
  have := (dropWhile_append_ne (p := isWs) s t (by unfold skipWs at h; rw [h]; simp)).2
  unfold skipWs at h ⊢
  rw [this, h]; rfl

theorem getu4_append {s t : Bytes} {v : Nat} {r : Bytes} (h : getu4 s = some (v, r)) :
    getu4 (s ++ t) = some (v, r ++ t) := by
  rcases s with _ | ⟨a, _ | ⟨b, _ | ⟨c, _ | ⟨d, s⟩⟩⟩⟩ <;> simp only [getu4] at h
  all_goals first | (simp at h; done) | skip
  simp only [List.cons_append]
  unfold getu4
  split at h
  · rename_i h1 h2 h3 h4
    simp only [h1, h2, h3, h4]
    simp only [Option.some.injEq, Prod.mk.injEq] at h
    rw [← h.1, ← h.2]
  · simp at h

theorem unesc_u {r : Bytes} (h : getu4 r = none) : unesc (0x75 :: r) = none := by
  simp [unesc, h]

/-- More input does not change an escape, provided the string goes on to its closing quote. -/
theorem unesc_append {s t o r1 : Bytes} {n : Nat} {q : Bytes × Bytes} (h : unesc s = some (o, r1))
    (hp : parseStrF n r1 = some q) : unesc (s ++ t) = some (o, r1 ++ t) := by
  cases s with
  | nil => simp [unesc] at h
  | cons c r =>
    simp only [unesc, List.cons_append] at h ⊢
    by_cases hc : c = 0x75
    · subst hc
      simp only [show (0x75 : UInt8) ≠ 0x22 by decide, show (0x75 : UInt8) ≠ 0x5c by decide, show (0x75 : UInt8) ≠ 0x2f by decide,
        show (0x75 : UInt8) ≠ 0x62 by decide, show (0x75 : UInt8) ≠ 0x66 by decide, show (0x75 : UInt8) ≠ 0x6e by decide,
        show (0x75 : UInt8) ≠ 0x72 by decide, show (0x75 : UInt8) ≠ 0x74 by decide, if_false, if_true] at h ⊢
      cases hu : getu4 r with
      | none => rw [hu] at h; simp at h
      | some w =>
        obtain ⟨v, r2⟩ := w
        rw [hu] at h
        rw [getu4_append hu]
        simp only at h ⊢
        split at h
        · rename_i hv
          rw [if_pos hv]
          cases r2 with
          | nil => simp only [Option.some.injEq, Prod.mk.injEq] at h; rw [← h.2] at hp; cases n <;> simp [parseStrF] at hp
          | cons x r2 =>
            cases r2 with
            | nil =>
              simp only [Option.some.injEq, Prod.mk.injEq] at h
              have hx : x ≠ 0x5c := by
                intro e; rw [← h.2, e] at hp
                cases n <;> simp [parseStrF, unesc] at hp
              have e : ([x] : Bytes) ++ t = x :: t := rfl
              rw [e]
              cases t with
              | nil => simp only [List.append_nil, h.1, h.2]
              | cons y t => simp [hx, h.1, ← h.2]
            | cons y r3 =>
              simp only [List.cons_append] at h ⊢
              split at h
              · rename_i hxy
                rw [if_pos hxy]
                cases hu2 : getu4 r3 with
                | none =>
                  rw [hu2] at h
                  simp only [Option.some.injEq, Prod.mk.injEq] at h
                  simp only [Bool.and_eq_true, decide_eq_true_eq] at hxy
                  rw [← h.2, hxy.1, hxy.2] at hp
                  cases n <;> simp [parseStrF, unesc, hu2] at hp
                | some w2 =>
                  obtain ⟨w, r4⟩ := w2
                  rw [hu2] at h
                  rw [getu4_append hu2]
                  simp only at h ⊢
                  split at h
                  · rename_i hw
                    rw [if_pos hw]
                    simp only [Option.some.injEq, Prod.mk.injEq] at h
                    rw [h.1, ← h.2]
                  · rename_i hw
                    rw [if_neg hw]
                    simp only [Option.some.injEq, Prod.mk.injEq] at h
                    rw [h.1, ← h.2]; rfl
              · rename_i hxy
                rw [if_neg hxy]
                simp only [Option.some.injEq, Prod.mk.injEq] at h
                rw [h.1, ← h.2]; rfl
        · rename_i hv
          rw [if_neg hv]
          simp only [Option.some.injEq, Prod.mk.injEq] at h
          rw [h.1, ← h.2]
    · simp only [hc, if_false] at h ⊢
      repeat' (split at h)
      all_goals first | (simp at h; done) | skip
      all_goals
        simp only [Option.some.injEq, Prod.mk.injEq] at h
        obtain ⟨rfl, rfl⟩ := h
        simp [*]

theorem parseStrF_append {n m : Nat} {s t o r : Bytes} (h : parseStrF n s = some (o, r)) (hm : n ≤ m) :
    parseStrF m (s ++ t) = some (o, r ++ t) := by
  induction n generalizing m s o r with
  | zero => cases s <;> simp [parseStrF] at h
  | succ n ih =>
    cases m with
    | zero => omega
    | succ m =>
    cases s with
    | nil => simp [parseStrF] at h
    | cons c s =>
      simp only [parseStrF, List.cons_append] at h ⊢
      split at h
      · rename_i hc
        rw [if_pos hc]
        simp only [Option.some.injEq, Prod.mk.injEq] at h
        rw [h.1, ← h.2]
      · rename_i hc
        rw [if_neg hc]
        split at h
        · rename_i hb
          rw [if_pos hb]
          cases hu : unesc s with
          | none => rw [hu] at h; simp at h
          | some w =>
            obtain ⟨out, r1⟩ := w
            rw [hu] at h
            simp only [Option.map_eq_some_iff] at h
            obtain ⟨⟨p1, p2⟩, hp, he⟩ := h
            rw [unesc_append hu hp]
            simp only [ih hp (Nat.le_of_succ_le_succ hm), Option.map_some]
            simp only [Prod.mk.injEq] at he
            rw [he.1, he.2]
        · rename_i hb
          rw [if_neg hb]
          split at h
          · simp at h
          · rename_i hlt
            rw [if_neg hlt]
            simp only [Option.map_eq_some_iff] at h
            obtain ⟨⟨p1, p2⟩, hp, he⟩ := h
            simp only [ih hp (Nat.le_of_succ_le_succ hm), Option.map_some]
            simp only [Prod.mk.injEq] at he
            rw [he.1, he.2]

theorem parseStr_append {s t o r : Bytes} (h : parseStr s = some (o, r)) : parseStr (s ++ t) = some (o, r ++ t) := by
  unfold parseStr at h ⊢
  simp only [Option.map_eq_some_iff] at h
  obtain ⟨⟨o', r'⟩, hp, he⟩ := h
  rw [parseStrF_append hp (m := (s ++ t).length) (by simp)]
  simp only [Prod.mk.injEq] at he
  simp [he.1, he.2]

theorem scanExp_more {s t ex r : Bytes} (h : scanExp s = some (ex, r)) (hr : r ≠ []) :
    scanExp (s ++ t) = some (ex, r ++ t) := by
  cases s with
  | nil => simp [scanExp] at h; exact absurd h.2 hr
  | cons c s =>
    simp only [scanExp, List.cons_append] at h ⊢
    split at h
    · rename_i hc
      rw [if_pos hc]
      cases s with
      | nil => simp at h
      | cons d s1 =>
        simp only [List.cons_append] at h ⊢
        split at h
        · rename_i hd
          rw [if_pos hd]
          split at h
          · simp at h
          · rename_i hne
            simp only [Option.some.injEq, Prod.mk.injEq] at h
            have := dropWhile_append_ne (p := isDigit) s1 t (by rw [h.2]; exact hr)
            rw [this.1, this.2, if_neg hne, h.1, h.2]
        · rename_i hd
          rw [if_neg hd]
          split at h
          · simp at h
          · rename_i hne
            simp only [Option.some.injEq, Prod.mk.injEq] at h
            have := dropWhile_append_ne (p := isDigit) (d :: s1) t (by rw [h.2]; exact hr)
            simp only [List.cons_append] at this
            rw [this.1, this.2, if_neg hne, h.1, h.2]
    · rename_i hc
      rw [if_neg hc]
      simp only [Option.some.injEq, Prod.mk.injEq] at h
      rw [h.1, ← h.2]; rfl

theorem scanFrac_more {s t fp r : Bytes} (h : scanFrac s = some (fp, r)) (hr : r ≠ []) :
    scanFrac (s ++ t) = some (fp, r ++ t) := by
  cases s with
  | nil => simp [scanFrac] at h; exact absurd h.2 hr
  | cons c s =>
    simp only [scanFrac, List.cons_append] at h ⊢
    split at h
    · rename_i hc
      rw [if_pos hc]
      split at h
      · simp at h
      · rename_i hne
        simp only [Option.some.injEq, Prod.mk.injEq] at h
        have := dropWhile_append_ne (p := isDigit) s t (by rw [h.2]; exact hr)
        rw [this.1, this.2, if_neg hne, h.1, h.2]
    · rename_i hc
      rw [if_neg hc]
      simp only [Option.some.injEq, Prod.mk.injEq] at h
      rw [h.1, ← h.2]; rfl

theorem scanInt_more {s t ip r : Bytes} (h : scanInt s = some (ip, r)) (hr : r ≠ []) :
    scanInt (s ++ t) = some (ip, r ++ t) := by
  cases s with
  | nil => simp [scanInt] at h
  | cons c s =>
    simp only [scanInt, List.cons_append] at h ⊢
    split at h
    · rename_i hc
      rw [if_pos hc]
      simp only [Option.some.injEq, Prod.mk.injEq] at h
      rw [h.1, ← h.2]
    · rename_i hc
      rw [if_neg hc]
      split at h
      · rename_i hd
        rw [if_pos hd]
        simp only [Option.some.injEq, Prod.mk.injEq] at h
        have := dropWhile_append_ne (p := isDigit) (c :: s) t (by rw [h.2]; exact hr)
        simp only [List.cons_append] at this
        rw [this.1, this.2, h.1, h.2]
      · simp at h

theorem scanAbs_more {neg : Bool} {s t r : Bytes} {p : NumParts} (h : scanAbs neg s = some (p, r)) (hr : r ≠ []) :
    scanAbs neg (s ++ t) = some (p, r ++ t) := by
  unfold scanAbs at h
  split at h
  · simp at h
  · rename_i ip s1 h1
    split at h
    · simp at h
    · rename_i fp s2 h2
      split at h
      · simp at h
      · rename_i ex s3 h3
        simp only [Option.some.injEq, Prod.mk.injEq] at h
        obtain ⟨rfl, rfl⟩ := h
        have h2' : s2 ≠ [] := by intro e; subst e; simp [scanExp] at h3; exact hr h3.2
        have h1' : s1 ≠ [] := by intro e; subst e; simp [scanFrac] at h2; exact h2' h2.2
        simp only [scanAbs, scanInt_more h1 h1', scanFrac_more h2 h2', scanExp_more h3 hr]

theorem scanNum_more {s t r : Bytes} {p : NumParts} (h : scanNum s = some (p, r)) (hr : r ≠ []) :
    scanNum (s ++ t) = some (p, r ++ t) := by
  cases s with
  | nil => simp [scanNum] at h
  | cons c s =>
    simp only [scanNum, List.cons_append] at *
    split at h
    · rename_i hc; rw [if_pos hc]; exact scanAbs_more h hr
    · rename_i hc; rw [if_neg hc]; exact scanAbs_more h hr

theorem stripWord_append {w s t r : Bytes} (h : stripWord w s = some r) : stripWord w (s ++ t) = some (r ++ t) := by
  unfold stripWord at h ⊢
  split at h
  · rename_i hp
    obtain ⟨u, hu⟩ := (hasPrefix_iff _ _).1 hp
    have : hasPrefix (s ++ t) w = true := (hasPrefix_iff _ _).2 ⟨u ++ t, by rw [hu, List.append_assoc]⟩
    rw [if_pos this]
    simp only [Option.some.injEq] at h
    rw [← h, hu]
    simp
  · simp at h

/-- A value whose end is recognised before the end of the input: anything but a number. Proof
device: models no code. -/
def Json.notNum : Json → Prop
  | .num _ => False
  | _ => True

mutual
theorem parseVal_append {n m : Nat} {s t r : Bytes} {j : Json} (h : parseVal n s = some (j, r)) (hm : n ≤ m)
    (hj : j.notNum ∨ r ≠ []) : parseVal m (s ++ t) = some (j, r ++ t) := by
  cases n with
  | zero => simp [parseVal] at h
  | succ n =>
  cases m with
  | zero => omega
  | succ m =>
  have hm' : n ≤ m := Nat.le_of_succ_le_succ hm
  simp only [parseVal] at h ⊢
  cases hs : skipWs s with
  | nil => rw [hs] at h; simp at h
  | cons c u =>
    rw [hs] at h
    rw [skipWs_append hs]
    simp only at h ⊢
    split at h
    · rename_i hc
      rw [if_pos hc]
      simp only [Option.map_eq_some_iff] at h
      obtain ⟨p, hp, he⟩ := h
      simp only [Prod.mk.injEq] at he
      rw [parseStr_append hp]
      simp [he.1, he.2]
    · rename_i hc
      rw [if_neg hc]
      split at h
      · rename_i hc
        rw [if_pos hc]
        cases hu : skipWs u with
        | nil => rw [hu] at h; simp at h
        | cons d v =>
          rw [hu] at h
          rw [skipWs_append hu]
          simp only at h ⊢
          split at h
          · rename_i hd
            rw [if_pos hd]
            simp only [Option.some.injEq, Prod.mk.injEq] at h
            rw [h.1, ← h.2]
          · rename_i hd
            rw [if_neg hd]
            cases hmem : parseMember n (d :: v) with
            | none => rw [hmem] at h; simp at h
            | some w =>
              obtain ⟨mm, r2⟩ := w
              rw [hmem] at h
              simp only [Option.map_eq_some_iff] at h
              obtain ⟨p, hp, he⟩ := h
              simp only [Prod.mk.injEq] at he
              have hne : r2 ≠ [] := by
                intro e; subst e; cases n <;> simp [parseMTail, skipWs] at hp
              have h1 := parseMember_append (t := t) hmem hm' (Or.inr hne)
              simp only [List.cons_append] at h1
              rw [h1]
              simp only [parseMTail_append hp hm', Option.map_some]
              rw [← he.1, ← he.2]
      · rename_i hc
        rw [if_neg hc]
        split at h
        · rename_i hc
          rw [if_pos hc]
          cases hu : skipWs u with
          | nil => rw [hu] at h; simp at h
          | cons d v =>
            rw [hu] at h
            rw [skipWs_append hu]
            simp only at h ⊢
            split at h
            · rename_i hd
              rw [if_pos hd]
              simp only [Option.some.injEq, Prod.mk.injEq] at h
              rw [h.1, ← h.2]
            · rename_i hd
              rw [if_neg hd]
              cases hmem : parseVal n (d :: v) with
              | none => rw [hmem] at h; simp at h
              | some w =>
                obtain ⟨mm, r2⟩ := w
                rw [hmem] at h
                simp only [Option.map_eq_some_iff] at h
                obtain ⟨p, hp, he⟩ := h
                simp only [Prod.mk.injEq] at he
                have hne : r2 ≠ [] := by
                  intro e; subst e; cases n <;> simp [parseTail, skipWs] at hp
                have h1 := parseVal_append (t := t) hmem hm' (Or.inr hne)
                simp only [List.cons_append] at h1
                rw [h1]
                simp only [parseTail_append hp hm', Option.map_some]
                rw [← he.1, ← he.2]
        · rename_i hc
          rw [if_neg hc]
          have key : ∀ {w : Bytes} {x : Json}, Option.map (fun r => (x, r)) (stripWord w (c :: u)) = some (j, r) →
              Option.map (fun r => (x, r)) (stripWord w (c :: (u ++ t))) = some (j, r ++ t) := by
            intro w x h
            simp only [Option.map_eq_some_iff] at h
            obtain ⟨p, hp, he⟩ := h
            simp only [Prod.mk.injEq] at he
            have h1 := stripWord_append (t := t) hp
            simp only [List.cons_append] at h1
            rw [h1]
            simp [he.1, he.2]
          split at h
          · rename_i hc; rw [if_pos hc]; exact key h
          · rename_i hc
            rw [if_neg hc]
            split at h
            · rename_i hc; rw [if_pos hc]; exact key h
            · rename_i hc
              rw [if_neg hc]
              split at h
              · rename_i hc; rw [if_pos hc]; exact key h
              · rename_i hc
                rw [if_neg hc]
                simp only [Option.map_eq_some_iff] at h
                obtain ⟨p, hp, he⟩ := h
                simp only [Prod.mk.injEq] at he
                have hr : r ≠ [] := by
                  rcases hj with hj | hj
                  · rw [← he.1] at hj; exact absurd hj (by simp [Json.notNum])
                  · exact hj
                have h1 := scanNum_more (t := t) hp (by rw [he.2]; exact hr)
                simp only [List.cons_append] at h1
                rw [h1]
                simp [he.1, he.2]
theorem parseTail_append {n m : Nat} {s t r : Bytes} {l : List Json} (h : parseTail n s = some (l, r)) (hm : n ≤ m) :
    parseTail m (s ++ t) = some (l, r ++ t) := by
  cases n with
  | zero => simp [parseTail] at h
  | succ n =>
  cases m with
  | zero => omega
  | succ m =>
  have hm' : n ≤ m := Nat.le_of_succ_le_succ hm
  simp only [parseTail] at h ⊢
  cases hs : skipWs s with
  | nil => rw [hs] at h; simp at h
  | cons c u =>
    rw [hs] at h
    rw [skipWs_append hs]
    simp only at h ⊢
    split at h
    · rename_i hc
      rw [if_pos hc]
      simp only [Option.some.injEq, Prod.mk.injEq] at h
      rw [h.1, ← h.2]
    · rename_i hc
      rw [if_neg hc]
      split at h
      · rename_i hc
        rw [if_pos hc]
        cases hmem : parseVal n u with
        | none => rw [hmem] at h; simp at h
        | some w =>
          obtain ⟨mm, r2⟩ := w
          rw [hmem] at h
          simp only [Option.map_eq_some_iff] at h
          obtain ⟨p, hp, he⟩ := h
          simp only [Prod.mk.injEq] at he
          have hne : r2 ≠ [] := by
            intro e; subst e; cases n <;> simp [parseTail, skipWs] at hp
          rw [parseVal_append (t := t) hmem hm' (Or.inr hne)]
          simp only [parseTail_append hp hm', Option.map_some]
          rw [← he.1, ← he.2]
      · simp at h
theorem parseMember_append {n m : Nat} {s t r : Bytes} {mm : Bytes × Json} (h : parseMember n s = some (mm, r)) (hm : n ≤ m)
    (hj : mm.2.notNum ∨ r ≠ []) : parseMember m (s ++ t) = some (mm, r ++ t) := by
  cases n with
  | zero => simp [parseMember] at h
  | succ n =>
  cases m with
  | zero => omega
  | succ m =>
  have hm' : n ≤ m := Nat.le_of_succ_le_succ hm
  simp only [parseMember] at h ⊢
  cases hs : skipWs s with
  | nil => rw [hs] at h; simp at h
  | cons c u =>
    rw [hs] at h
    rw [skipWs_append hs]
    simp only at h ⊢
    split at h
    · rename_i hc
      rw [if_pos hc]
      cases hu : parseStr u with
      | none => rw [hu] at h; simp at h
      | some w =>
        obtain ⟨k, r1⟩ := w
        rw [hu] at h
        rw [parseStr_append hu]
        simp only at h ⊢
        cases hr1 : skipWs r1 with
        | nil => rw [hr1] at h; simp at h
        | cons d r2 =>
          rw [hr1] at h
          rw [skipWs_append hr1]
          simp only at h ⊢
          split at h
          · rename_i hd
            rw [if_pos hd]
            simp only [Option.map_eq_some_iff] at h
            obtain ⟨p, hp, he⟩ := h
            simp only [Prod.mk.injEq] at he
            rw [parseVal_append (t := t) hp hm' (by rw [← he.1] at hj; rw [he.2]; exact hj)]
            simp [he.1, he.2]
          · simp at h
    · simp at h
theorem parseMTail_append {n m : Nat} {s t r : Bytes} {l : List (Bytes × Json)} (h : parseMTail n s = some (l, r)) (hm : n ≤ m) :
    parseMTail m (s ++ t) = some (l, r ++ t) := by
  cases n with
  | zero => simp [parseMTail] at h
  | succ n =>
  cases m with
  | zero => omega
  | succ m =>
  have hm' : n ≤ m := Nat.le_of_succ_le_succ hm
  simp only [parseMTail] at h ⊢
  cases hs : skipWs s with
  | nil => rw [hs] at h; simp at h
  | cons c u =>
    rw [hs] at h
    rw [skipWs_append hs]
    simp only at h ⊢
    split at h
    · rename_i hc
      rw [if_pos hc]
      simp only [Option.some.injEq, Prod.mk.injEq] at h
      rw [h.1, ← h.2]
    · rename_i hc
      rw [if_neg hc]
      split at h
      · rename_i hc
        rw [if_pos hc]
        cases hmem : parseMember n u with
        | none => rw [hmem] at h; simp at h
        | some w =>
          obtain ⟨mm, r2⟩ := w
          rw [hmem] at h
          simp only [Option.map_eq_some_iff] at h
          obtain ⟨p, hp, he⟩ := h
          simp only [Prod.mk.injEq] at he
          have hne : r2 ≠ [] := by
            intro e; subst e; cases n <;> simp [parseMTail, skipWs] at hp
          rw [parseMember_append (t := t) hmem hm' (Or.inr hne)]
          simp only [parseMTail_append hp hm', Option.map_some]
          rw [← he.1, ← he.2]
      · simp at h
end

theorem parseVal_brace {n : Nat} {s r : Bytes} {j : Json} (h : parseVal n (0x7b :: s) = some (j, r)) : j.notNum := by
  cases n with
  | zero => simp [parseVal] at h
  | succ n =>
    simp only [parseVal] at h
    rw [skipWs_cons (by decide)] at h
    simp only [show (0x7b : UInt8) ≠ 0x22 by decide, if_false, if_true] at h
    split at h
    · simp at h
    · split at h
      · simp only [Option.some.injEq, Prod.mk.injEq] at h; rw [← h.1]; trivial
      · split at h
        · simp at h
        · simp only [Option.map_eq_some_iff, Prod.mk.injEq] at h
          obtain ⟨_, _, h, _⟩ := h
          rw [← h]; trivial

/-- A strict prefix of a printed JSON object is not a JSON document. -/
theorem Json.parse_print_take {ms : List (Bytes × Json)} (h : (Json.obj ms).WF) {n : Nat}
    (hn : n < (Json.obj ms).print.length) : Json.parse ((Json.obj ms).print.take n) = none := by
  cases n with
  | zero => simp [Json.parse, parseVal, skipWs]
  | succ n =>
    obtain ⟨b, hb⟩ : ∃ b, (Json.obj ms).print = 0x7b :: b := ⟨_, rfl⟩
    cases hp : parseVal (((Json.obj ms).print.take (n + 1)).length + 1) ((Json.obj ms).print.take (n + 1)) with
    | none => simp only [Json.parse, hp]
    | some w =>
      obtain ⟨j, r⟩ := w
      have hnn : j.notNum := by
        rw [hb, List.take_succ_cons] at hp
        exact parseVal_brace hp
      have hx := parseVal_append (m := (Json.obj ms).print.length + 1) (t := (Json.obj ms).print.drop (n + 1)) hp
        (by simp; omega) (Or.inl hnn)
      rw [List.take_append_drop] at hx
      have hy := parseVal_print (Json.obj ms) h ((Json.obj ms).print.length + 1) [] (by omega) (by intro c hc; simp at hc)
      simp only [List.append_nil] at hy
      rw [hy] at hx
      simp only [Option.some.injEq, Prod.mk.injEq] at hx
      have hl := congrArg List.length hx.2
      simp only [List.length_nil, List.length_append, List.length_drop] at hl
      omega

/-- The same for any document encoding/json produces, invalid UTF-8 in its strings included. -/
theorem Json.parse_print_take_clean {ms : List (Bytes × Json)} (h : (Json.obj ms).NumsOK) {n : Nat}
    (hn : n < (Json.obj ms).print.length) : Json.parse ((Json.obj ms).print.take n) = none := by
  rw [← Json.print_clean] at hn ⊢
  exact Json.parse_print_take (ms := Json.cleanMembers ms) (Json.clean_WF _ h) hn

end Verif
