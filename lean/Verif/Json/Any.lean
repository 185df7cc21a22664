/-
`interface{}` values and struct decoding of encoding/json.
-/
import Verif.Json.Num

namespace Verif
set_option linter.unusedSimpArgs false

/-! ### decoding into `interface{}` -/

mutual
/-- `json.Unmarshal` into `interface{}` followed by what `json.Marshal` would print: objects become
maps (sorted keys, the last duplicate wins), numbers go through float64. `none`: a number is out of
the float64 range and Unmarshal reports an error. The repository routes every configuration and raw
result through this: libcni/conf.go:392-417 `InjectConf`, libcni/api.go:259-297 `CNIConfig.cacheAdd`,
pkg/types/100/types.go:100-119 `Result.MarshalJSON`. -/
def Json.toAny : Json → Option Json
  | .null => some .null
  | .bool b => some (.bool b)
  | .num l => (normNum l).map .num
  | .str s => some (.str s)
  | .arr l => (Json.toAnyList l).map .arr
  | .obj l => (Json.toAnyMembers l).map fun ms => .obj (GoMap.ofList ms)
/-- The repository routes every configuration and raw result through this:
libcni/conf.go:392-417 `InjectConf`, libcni/api.go:259-297 `CNIConfig.cacheAdd`, pkg/types/100/types.go:100-119 `Result.MarshalJSON`. -/
def Json.toAnyList : List Json → Option (List Json)
  | [] => some []
  | j :: l => match j.toAny, Json.toAnyList l with
    | some j', some l' => some (j' :: l')
    | _, _ => none
/-- The repository routes every configuration and raw result through this:
libcni/conf.go:392-417 `InjectConf`, libcni/api.go:259-297 `CNIConfig.cacheAdd`, pkg/types/100/types.go:100-119 `Result.MarshalJSON`. -/
def Json.toAnyMembers : List (Bytes × Json) → Option (List (Bytes × Json))
  | [] => some []
  | (k, j) :: l => match j.toAny, Json.toAnyMembers l with
    | some j', some l' => some ((k, j') :: l')
    | _, _ => none
end

/-- An `interface{}` value (as produced by decoding): already in the form `toAny` produces, strings
UTF-8. The repository routes every configuration and raw result through this:
libcni/conf.go:392-417 `InjectConf`, libcni/api.go:259-297 `CNIConfig.cacheAdd`, pkg/types/100/types.go:100-119 `Result.MarshalJSON`. -/
def Json.Normal (j : Json) : Prop := j.toAny = some j ∧ j.WF

theorem WFMembers_iff {l : List (Bytes × Json)} :
    Json.WFMembers l ↔ ∀ m ∈ l, isUtf8 m.1 = true ∧ m.2.WF := by
  induction l with
  | nil => simp [Json.WFMembers]
  | cons m l ih => simp [Json.WFMembers, ih]

theorem WFList_iff {l : List Json} : Json.WFList l ↔ ∀ j ∈ l, j.WF := by
  induction l with
  | nil => simp [Json.WFList]
  | cons m l ih => simp [Json.WFList, ih]

theorem toAnyMembers_iff {l l' : List (Bytes × Json)} :
    Json.toAnyMembers l = some l' ↔
      l.length = l'.length ∧ ∀ i (h : i < l.length) (h' : i < l'.length),
        l[i].1 = l'[i].1 ∧ l[i].2.toAny = some l'[i].2 := by
  induction l generalizing l' with
  | nil => cases l' <;> simp [Json.toAnyMembers]
  | cons m l ih =>
    obtain ⟨k, j⟩ := m
    constructor
    · intro h
      simp only [Json.toAnyMembers] at h
      split at h
      · rename_i j' l'' hj hl
        simp only [Option.some.injEq] at h; subst h
        have := ih.1 hl
        refine ⟨by simp [this.1], ?_⟩
        intro i h1 h2
        cases i with
        | zero => simp [hj]
        | succ i => simp at h1 h2 ⊢; exact this.2 i h1 h2
      · simp at h
    · rintro ⟨hlen, h⟩
      cases l' with
      | nil => simp at hlen
      | cons m' l' =>
        have h0 := h 0 (by simp) (by simp)
        simp at h0
        have hl : Json.toAnyMembers l = some l' := by
          apply ih.2
          refine ⟨by simpa using hlen, fun i h1 h2 => ?_⟩
          have := h (i + 1) (by simp; omega) (by simp; omega)
          simpa using this
        simp only [Json.toAnyMembers, h0.2, hl]
        obtain ⟨k', j'⟩ := m'
        simp at h0; simp [h0.1]

/-- Members already in normal form stay what they are. -/
theorem toAnyMembers_self {l : List (Bytes × Json)} (h : ∀ m ∈ l, m.2.toAny = some m.2) :
    Json.toAnyMembers l = some l := by
  rw [toAnyMembers_iff]
  exact ⟨rfl, fun i h1 _ => ⟨rfl, h _ (List.getElem_mem h1)⟩⟩

theorem toAnyMembers_mem {l l' : List (Bytes × Json)} (h : Json.toAnyMembers l = some l') :
    ∀ m' ∈ l', ∃ m ∈ l, m.1 = m'.1 ∧ m.2.toAny = some m'.2 := by
  intro m' hm'
  obtain ⟨hl, hh⟩ := toAnyMembers_iff.1 h
  obtain ⟨i, hi, e⟩ := List.getElem_of_mem hm'
  have := hh i (by omega) hi
  exact ⟨l[i], List.getElem_mem _, by rw [← e]; exact this.1, by rw [← e]; exact this.2⟩

theorem ofList_mem {α : Type} {l : List (Bytes × α)} : ∀ m ∈ GoMap.ofList l, m ∈ l := by
  intro m hm
  have hs := GoMap.sorted_ofList l
  have := GoMap.mem_get? hs (k := m.1) (v := m.2) hm
  have e : GoMap.ofList l = GoMap.insertAll [] l := rfl
  rw [e, GoMap.get?_insertAll] at this
  have h2 : GoMap.get? l.reverse m.1 = some m.2 := by
    cases hh : GoMap.get? l.reverse m.1 with
    | none => simp [hh, GoMap.get?] at this
    | some v => simpa [hh] using this
  have := GoMap.get?_some_mem h2
  simpa using this

mutual
theorem Json.toAny_idem (j j' : Json) (h : j.toAny = some j') : j'.toAny = some j' := by
  cases j with
  | null => simp [Json.toAny] at h; subst h; rfl
  | bool b => simp [Json.toAny] at h; subst h; rfl
  | str s => simp [Json.toAny] at h; subst h; rfl
  | num l =>
    simp only [Json.toAny, Option.map_eq_some_iff] at h
    obtain ⟨l', hl, rfl⟩ := h
    simp [Json.toAny, normNum_idem hl]
  | arr l =>
    simp only [Json.toAny, Option.map_eq_some_iff] at h
    obtain ⟨l', hl, rfl⟩ := h
    simp [Json.toAny, Json.toAnyList_idem l l' hl]
  | obj l =>
    simp only [Json.toAny, Option.map_eq_some_iff] at h
    obtain ⟨l', hl, rfl⟩ := h
    have := Json.toAnyMembers_idem l l' hl
    simp only [Json.toAny, Option.map_eq_some_iff]
    refine ⟨GoMap.ofList l', toAnyMembers_self (fun m hm => this m (ofList_mem m hm)), ?_⟩
    rw [GoMap.ofList_of_sorted (GoMap.sorted_ofList _)]
theorem Json.toAnyList_idem (l l' : List Json) (h : Json.toAnyList l = some l') :
    Json.toAnyList l' = some l' := by
  cases l with
  | nil => simp [Json.toAnyList] at h; subst h; rfl
  | cons j l =>
    simp only [Json.toAnyList] at h
    split at h
    · rename_i j' l'' hj hl
      simp only [Option.some.injEq] at h; subst h
      simp [Json.toAnyList, Json.toAny_idem j j' hj, Json.toAnyList_idem l l'' hl]
    · simp at h
theorem Json.toAnyMembers_idem (l l' : List (Bytes × Json)) (h : Json.toAnyMembers l = some l') :
    ∀ m ∈ l', m.2.toAny = some m.2 := by
  cases l with
  | nil => simp [Json.toAnyMembers] at h; subst h; simp
  | cons m l =>
    obtain ⟨k, j⟩ := m
    simp only [Json.toAnyMembers] at h
    split at h
    · rename_i j' l'' hj hl
      simp only [Option.some.injEq] at h; subst h
      have h1 := Json.toAny_idem j j' hj
      have h2 := Json.toAnyMembers_idem l l'' hl
      intro m hm
      rcases List.mem_cons.1 hm with rfl | hm
      · exact h1
      · exact h2 m hm
    · simp at h
end

mutual
theorem Json.toAny_WF (j j' : Json) (hw : j.WF) (h : j.toAny = some j') : j'.WF := by
  cases j with
  | null => simp [Json.toAny] at h; subst h; trivial
  | bool b => simp [Json.toAny] at h; subst h; trivial
  | str s => simp [Json.toAny] at h; subst h; exact hw
  | num l =>
    simp only [Json.toAny, Option.map_eq_some_iff] at h
    obtain ⟨l', hl, rfl⟩ := h
    simp only [Json.WF]; exact normNum_valid hl
  | arr l =>
    simp only [Json.toAny, Option.map_eq_some_iff] at h
    obtain ⟨l', hl, rfl⟩ := h
    simp only [Json.WF] at hw ⊢
    exact Json.toAnyList_WF l l' hw hl
  | obj l =>
    simp only [Json.toAny, Option.map_eq_some_iff] at h
    obtain ⟨l', hl, rfl⟩ := h
    simp only [Json.WF] at hw ⊢
    have := Json.toAnyMembers_WF l l' hw hl
    rw [WFMembers_iff] at this ⊢
    exact fun m hm => this m (ofList_mem m hm)
theorem Json.toAnyList_WF (l l' : List Json) (hw : Json.WFList l) (h : Json.toAnyList l = some l') :
    Json.WFList l' := by
  cases l with
  | nil => simp [Json.toAnyList] at h; subst h; trivial
  | cons j l =>
    simp only [Json.toAnyList] at h
    simp only [Json.WFList] at hw
    split at h
    · rename_i j' l'' hj hl
      simp only [Option.some.injEq] at h; subst h
      exact ⟨Json.toAny_WF j j' hw.1 hj, Json.toAnyList_WF l l'' hw.2 hl⟩
    · simp at h
theorem Json.toAnyMembers_WF (l l' : List (Bytes × Json)) (hw : Json.WFMembers l)
    (h : Json.toAnyMembers l = some l') : Json.WFMembers l' := by
  cases l with
  | nil => simp [Json.toAnyMembers] at h; subst h; trivial
  | cons m l =>
    obtain ⟨k, j⟩ := m
    simp only [Json.toAnyMembers] at h
    simp only [Json.WFMembers] at hw
    split at h
    · rename_i j' l'' hj hl
      simp only [Option.some.injEq] at h; subst h
      exact ⟨⟨hw.1.1, Json.toAny_WF j j' hw.1.2 hj⟩, Json.toAnyMembers_WF l l'' hw.2 hl⟩
    · simp at h
end

theorem Json.toAny_normal {j j' : Json} (hw : j.WF) (h : j.toAny = some j') : j'.Normal :=
  ⟨Json.toAny_idem j j' h, Json.toAny_WF j j' hw h⟩

/-! ### everything the parser produces is well-formed -/

theorem parseStr_utf8 {s r k : Bytes} (h : parseStr s = some (k, r)) : isUtf8 k = true := by
  simp only [parseStr, Option.map_eq_some_iff] at h
  obtain ⟨p, _, e⟩ := h
  simp only [Prod.mk.injEq] at e
  rw [← e.1]; exact isUtf8_sanitize _

theorem scanNum_lit_valid {s r : Bytes} {p : NumParts} (h : scanNum s = some (p, r)) :
    numValid p.lit = true := by
  have hd : ∀ (l : Bytes), (l.takeWhile isDigit).takeWhile isDigit = l.takeWhile isDigit ∧
      (l.takeWhile isDigit).dropWhile isDigit = [] := fun l =>
    takeWhile_all (fun c hc => by simpa using List.all_eq_true.1 (List.all_takeWhile (l := l)) c hc)
  have hexp : ∀ {t ex t'}, scanExp t = some (ex, t') → scanExp ex = some (ex, []) := by
    intro t ex t' he
    cases t with
    | nil => simp [scanExp] at he; simp [he.1, scanExp]
    | cons c t =>
      simp only [scanExp] at he
      split at he
      · rename_i hc
        cases t with
        | nil => simp at he
        | cons d t1 =>
          simp only [] at he
          split at he
          · rename_i hd'
            split at he
            · simp at he
            · rename_i hne
              simp only [Option.some.injEq, Prod.mk.injEq] at he
              rw [← he.1]
              simp only [scanExp, hc, if_true, hd', (hd t1).1, (hd t1).2]
              rw [if_neg hne]
          · rename_i hd'
            split at he
            · simp at he
            · rename_i hne
              simp only [Option.some.injEq, Prod.mk.injEq] at he
              rw [← he.1]
              have hdd : isDigit d = true := by
                cases hx : isDigit d with
                | true => rfl
                | false => simp [hx] at hne
              have e : (d :: t1).takeWhile isDigit = d :: t1.takeWhile isDigit := by simp [hdd]
              rw [e]
              have h2 := hd (d :: t1)
              rw [e] at h2
              simp only [scanExp, hc, if_true, hd']
              rw [h2.1, h2.2]
              simp
      · simp at he; rw [he.1]; rfl
  have hexpHead : ∀ {t ex t'}, scanExp t = some (ex, t') → ∀ c ∈ ex.head?, isDigit c = false ∧ c ≠ 46 := by
    intro t ex t' he c hc
    cases t with
    | nil => simp [scanExp] at he; simp [he.1] at hc
    | cons a t =>
      simp only [scanExp] at he
      split at he
      · rename_i ha
        have : ex.head? = some a := by
          cases t with
          | nil => simp at he
          | cons d t1 =>
            simp only [] at he
            split at he <;> split at he <;> simp at he <;> simp [← he.1]
        rw [this] at hc; simp at hc; subst hc
        simp at ha
        rcases ha with rfl | rfl <;> decide
      · simp at he; rw [he.1] at hc; simp at hc
  have habs : ∀ {b t}, scanAbs b t = some (p, r) → scanAbs b (p.ip ++ (if p.fp = [] then [] else 46 :: p.fp) ++ p.ex) = some (p, []) := by
    intro b t ha
    unfold scanAbs at ha
    split at ha
    · simp at ha
    · rename_i ip s1 h1
      split at ha
      · simp at ha
      · rename_i fp s2 h2
        split at ha
        · simp at ha
        · rename_i ex s3 h3
          simp only [Option.some.injEq, Prod.mk.injEq] at ha
          obtain ⟨rfl, rfl⟩ := ha
          simp only []
          have hx := hexp h3
          have hh := hexpHead h3
          have hf : scanFrac ((if fp = [] then [] else 46 :: fp) ++ ex) = some (fp, ex) := by
            by_cases hfp : fp = []
            · subst hfp
              cases hex : ex with
              | nil => rfl
              | cons c q =>
                have := hh c (by simp [hex])
                simp [scanFrac, this.2]
            · simp only [hfp, if_false, List.cons_append, scanFrac, if_true]
              have hdig : fp.takeWhile isDigit = fp ∧ fp.dropWhile isDigit = [] := by
                cases s1 with
                | nil => simp [scanFrac] at h2; exact absurd h2.1 hfp
                | cons c q =>
                  simp only [scanFrac] at h2
                  split at h2
                  · split at h2
                    · simp at h2
                    · simp only [Option.some.injEq, Prod.mk.injEq] at h2
                      rw [← h2.1]; exact hd q
                  · simp at h2; exact absurd h2.1 hfp
              have := takeWhile_append_delim fp ex hdig.2 (fun c hc => (hh c hc).1)
              rw [hdig.1] at this
              rw [this.1, this.2]
              simp [hfp]
          have hi : scanInt (ip ++ ((if fp = [] then [] else 46 :: fp) ++ ex)) =
              some (ip, (if fp = [] then [] else 46 :: fp) ++ ex) := by
            have hdel : ∀ c ∈ ((if fp = [] then [] else 46 :: fp) ++ ex).head?, isDigit c = false := by
              intro c hc
              by_cases hfp : fp = []
              · simp [hfp] at hc; exact (hh c (by simp [hc])).1
              · simp [hfp] at hc; subst hc; decide
            generalize (if fp = [] then [] else 46 :: fp) ++ ex = rest at hdel
            cases t with
            | nil => simp [scanInt] at h1
            | cons c q =>
              simp only [scanInt] at h1
              split at h1
              · simp at h1; rw [← h1.1]; simp [scanInt]
              · rename_i hc0
                split at h1
                · rename_i hcd
                  simp only [Option.some.injEq, Prod.mk.injEq] at h1
                  have e : (c :: q).takeWhile isDigit = c :: q.takeWhile isDigit := by simp [hcd]
                  have h2' := hd (c :: q)
                  rw [h1.1] at h2'
                  have := takeWhile_append_delim ip rest h2'.2 hdel
                  rw [h2'.1] at this
                  rw [← h1.1, e] at this ⊢
                  simp only [List.cons_append] at this ⊢
                  simp only [scanInt, hc0, hcd, if_true, if_false]
                  rw [this.1, this.2]
                · simp at h1
          rw [List.append_assoc]
          simp only [scanAbs, hi, hf, hx]
  have hneg : ∀ {b t}, scanAbs b t = some (p, r) → p.neg = b := by
    intro b t ha
    unfold scanAbs at ha
    repeat' split at ha
    all_goals simp at ha
    rw [← ha.1]
  cases s with
  | nil => simp [scanNum] at h
  | cons c s =>
    simp only [scanNum] at h
    apply numValid_iff.2
    refine ⟨p, ?_⟩
    split at h
    · have h1 := habs h
      have h2 := hneg h
      simp only [NumParts.lit, h2, if_true, List.cons_append, List.nil_append, List.append_assoc, scanNum]
      simpa only [List.append_assoc] using h1
    · rename_i hc
      have h1 := habs h
      have h2 := hneg h
      simp only [NumParts.lit, h2, Bool.false_eq_true, if_false, List.nil_append]
      have hne : ∃ d q, p.ip ++ (if p.fp = [] then [] else 46 :: p.fp) ++ p.ex = d :: q ∧ d ≠ 45 := by
        cases hl : p.ip ++ (if p.fp = [] then [] else 46 :: p.fp) ++ p.ex with
        | nil => rw [hl] at h1; simp [scanAbs, scanInt] at h1
        | cons d q =>
          refine ⟨d, q, rfl, ?_⟩
          rintro rfl
          rw [hl] at h1
          simp [scanAbs, scanInt, isDigit] at h1
      obtain ⟨d, q, e, hd45⟩ := hne
      rw [e] at h1 ⊢
      simp only [scanNum, hd45, if_false, h1]

theorem parse_all_WF (n : Nat) :
    (∀ s j r, parseVal n s = some (j, r) → j.WF) ∧
    (∀ s l r, parseTail n s = some (l, r) → Json.WFList l) ∧
    (∀ s m r, parseMember n s = some (m, r) → isUtf8 m.1 = true ∧ m.2.WF) ∧
    (∀ s l r, parseMTail n s = some (l, r) → Json.WFMembers l) := by
  induction n with
  | zero => simp [parseVal, parseTail, parseMember, parseMTail]
  | succ n ih =>
    obtain ⟨ih1, ih2, ih3, ih4⟩ := ih
    refine ⟨?_, ?_, ?_, ?_⟩
    · intro s j r h
      simp only [parseVal] at h
      split at h
      · simp at h
      · rename_i c q _
        split at h
        · simp only [Option.map_eq_some_iff] at h
          obtain ⟨p, hp, e⟩ := h
          simp only [Prod.mk.injEq] at e
          rw [← e.1]; simp only [Json.WF]; exact parseStr_utf8 (r := p.2) hp
        split at h
        · split at h
          · simp at h
          · split at h
            · simp at h; rw [← h.1]; trivial
            · split at h
              · simp at h
              · rename_i m r2 hm
                simp only [Option.map_eq_some_iff] at h
                obtain ⟨p, hp, e⟩ := h
                simp only [Prod.mk.injEq] at e
                rw [← e.1]; exact ⟨ih3 _ _ _ hm, ih4 _ _ p.2 hp⟩
        split at h
        · split at h
          · simp at h
          · split at h
            · simp at h; rw [← h.1]; trivial
            · split at h
              · simp at h
              · rename_i m r2 hm
                simp only [Option.map_eq_some_iff] at h
                obtain ⟨p, hp, e⟩ := h
                simp only [Prod.mk.injEq] at e
                rw [← e.1]; exact ⟨ih1 _ _ _ hm, ih2 _ _ p.2 hp⟩
        split at h
        · simp at h; rw [← h.2]; trivial
        split at h
        · simp at h; rw [← h.2]; trivial
        split at h
        · simp at h; rw [← h.2]; trivial
        · simp only [Option.map_eq_some_iff] at h
          obtain ⟨p, hp, e⟩ := h
          simp only [Prod.mk.injEq] at e
          rw [← e.1]; simp only [Json.WF]; exact scanNum_lit_valid (r := p.2) hp
    · intro s l r h
      simp only [parseTail] at h
      split at h
      · simp at h
      · split at h
        · simp at h; rw [h.1]; trivial
        · split at h
          · split at h
            · simp at h
            · rename_i m r2 hm
              simp only [Option.map_eq_some_iff] at h
              obtain ⟨p, hp, e⟩ := h
              simp only [Prod.mk.injEq] at e
              rw [← e.1]; exact ⟨ih1 _ _ _ hm, ih2 _ _ p.2 hp⟩
          · simp at h
    · intro s m r h
      simp only [parseMember] at h
      split at h
      · simp at h
      · split at h
        · split at h
          · simp at h
          · rename_i k r1 hk
            split at h
            · simp at h
            · split at h
              · simp only [Option.map_eq_some_iff] at h
                obtain ⟨p, hp, e⟩ := h
                simp only [Prod.mk.injEq] at e
                rw [← e.1]; exact ⟨parseStr_utf8 hk, ih1 _ _ p.2 hp⟩
              · simp at h
        · simp at h
    · intro s l r h
      simp only [parseMTail] at h
      split at h
      · simp at h
      · split at h
        · simp at h; rw [h.1]; trivial
        · split at h
          · split at h
            · simp at h
            · rename_i m r2 hm
              simp only [Option.map_eq_some_iff] at h
              obtain ⟨p, hp, e⟩ := h
              simp only [Prod.mk.injEq] at e
              rw [← e.1]; exact ⟨ih3 _ _ _ hm, ih4 _ _ p.2 hp⟩
          · simp at h

theorem Json.parse_WF {s : Bytes} {j : Json} (h : Json.parse s = some j) : j.WF := by
  unfold Json.parse at h
  split at h
  · rename_i j' r hp
    simp at h
    rw [← h.2]; exact (parse_all_WF _).1 _ _ _ hp
  · simp at h

end Verif
