/-
Go `map[string]T` as an association list. `insert` keeps it sorted by key, so a map built by
insertions is the canonical (sorted, duplicate-free) representation that `json.Marshal` prints.
-/
import Verif.Base.BytesLemmas

namespace Verif

/-- A Go `map[string]α` (a nil map is the empty list). Go maps as used by
libcni/conf.go:392-417 `InjectConf`, libcni/conf.go:92-245 `NetworkConfFromBytes` and
pkg/invoke/args.go:109-128 `dedupEnv`. -/
abbrev GoMap (α : Type) := List (Bytes × α)

namespace GoMap
variable {α : Type}

/-- `m[k]` with the comma-ok form. Go maps as used by libcni/conf.go:392-417 `InjectConf`,
libcni/conf.go:92-245 `NetworkConfFromBytes` and pkg/invoke/args.go:109-128 `dedupEnv`. -/
def get? : GoMap α → Bytes → Option α
  | [], _ => none
  | (k', v) :: m, k => if k' = k then some v else get? m k

/-- `m[k] = v`. Go maps as used by libcni/conf.go:392-417 `InjectConf`,
libcni/conf.go:92-245 `NetworkConfFromBytes` and pkg/invoke/args.go:109-128 `dedupEnv`. -/
def insert : GoMap α → Bytes → α → GoMap α
  | [], k, v => [(k, v)]
  | (k', v') :: m, k, v =>
    if k = k' then (k, v) :: m
    else if Bytes.lt k k' then (k, v) :: (k', v') :: m
    else (k', v') :: insert m k v

/-- `delete(m, k)`. Go maps as used by libcni/conf.go:392-417 `InjectConf`,
libcni/conf.go:92-245 `NetworkConfFromBytes` and pkg/invoke/args.go:109-128 `dedupEnv`. -/
def erase (m : GoMap α) (k : Bytes) : GoMap α := m.filter (fun p => p.1 ≠ k)

/-- A map built from a list of assignments, later ones winning. Go maps as used by
libcni/conf.go:392-417 `InjectConf`, libcni/conf.go:92-245 `NetworkConfFromBytes` and
pkg/invoke/args.go:109-128 `dedupEnv`. -/
def ofList (l : List (Bytes × α)) : GoMap α := l.foldl (fun m p => insert m p.1 p.2) []

/-- Insert all entries of `l` (in order) into `m`. Go maps as used by
libcni/conf.go:392-417 `InjectConf`, libcni/conf.go:92-245 `NetworkConfFromBytes` and
pkg/invoke/args.go:109-128 `dedupEnv`. -/
def insertAll (m : GoMap α) (l : List (Bytes × α)) : GoMap α := l.foldl (fun m p => insert m p.1 p.2) m

/-- Keys strictly increasing. Proof device: models no code. -/
def Sorted : GoMap α → Prop
  | [] => True
  | (k, _) :: m => (∀ p ∈ m, Bytes.lt k p.1 = true) ∧ Sorted m

theorem get?_insert (m : GoMap α) (k : Bytes) (v : α) (k' : Bytes) :
    get? (insert m k v) k' = if k = k' then some v else get? m k' := by
  induction m with
  | nil => simp [insert, get?]
  | cons p m ih =>
    obtain ⟨a, b⟩ := p
    simp only [insert]
    split
    · rename_i h; subst h
      simp only [get?]; split <;> rfl
    · split
      · simp only [get?]
      · simp only [get?, ih]
        split
        · rename_i h1 h2 h3; subst h3; simp [h1]
        · rfl

@[simp] theorem get?_insert_self (m : GoMap α) (k : Bytes) (v : α) : get? (insert m k v) k = some v := by
  simp [get?_insert]

theorem get?_insert_ne (m : GoMap α) {k k' : Bytes} (v : α) (h : k ≠ k') :
    get? (insert m k v) k' = get? m k' := by
  simp [get?_insert, h]

theorem get?_erase (m : GoMap α) (k k' : Bytes) :
    get? (erase m k) k' = if k = k' then none else get? m k' := by
  induction m with
  | nil => simp [erase, get?]
  | cons p m ih =>
    obtain ⟨a, b⟩ := p
    simp only [erase, List.filter_cons] at *
    by_cases hak : a = k
    · subst hak
      simp only [ne_eq, not_true_eq_false, decide_false, Bool.false_eq_true, if_false]
      rw [ih]
      simp only [get?]; split <;> simp_all
    · simp only [ne_eq, hak, not_false_eq_true, decide_true, if_true]
      simp only [get?, ih]
      split
      · rename_i h; subst h; simp [Ne.symm hak]
      · rfl

theorem mem_insert {m : GoMap α} {k : Bytes} {v : α} {p : Bytes × α}
    (h : p ∈ insert m k v) : p = (k, v) ∨ p ∈ m := by
  induction m with
  | nil => simp [insert] at h; exact Or.inl h
  | cons q m ih =>
    obtain ⟨a, b⟩ := q
    simp only [insert] at h
    split at h
    · simp at h; rcases h with h | h
      · exact Or.inl h
      · exact Or.inr (by simp [h])
    · split at h
      · simp at h; rcases h with h | h | h
        · exact Or.inl h
        · exact Or.inr (by simp [h])
        · exact Or.inr (by simp [h])
      · simp at h; rcases h with h | h
        · exact Or.inr (by simp [h])
        · rcases ih h with h | h
          · exact Or.inl h
          · exact Or.inr (by simp [h])

theorem sorted_insert {m : GoMap α} (h : Sorted m) (k : Bytes) (v : α) : Sorted (insert m k v) := by
  induction m with
  | nil => simp [insert, Sorted]
  | cons q m ih =>
    obtain ⟨a, b⟩ := q
    obtain ⟨h1, h2⟩ := h
    simp only [insert]
    split
    · rename_i e; subst e; exact ⟨h1, h2⟩
    · rename_i hne
      split
      · rename_i hlt
        refine ⟨?_, h1, h2⟩
        intro p hp
        simp at hp
        rcases hp with rfl | hp
        · exact hlt
        · exact Bytes.lt_trans hlt (h1 p hp)
      · rename_i hnlt
        refine ⟨?_, ih h2⟩
        intro p hp
        rcases mem_insert hp with rfl | hp
        · rcases Bytes.lt_trichotomy a k with h | h | h
          · exact h
          · exact absurd h.symm hne
          · exact absurd h hnlt
        · exact h1 p hp

theorem sorted_filter {m : GoMap α} (h : Sorted m) (f : Bytes × α → Bool) : Sorted (m.filter f) := by
  induction m with
  | nil => simp [Sorted]
  | cons q m ih =>
    obtain ⟨a, b⟩ := q
    obtain ⟨h1, h2⟩ := h
    simp only [List.filter_cons]
    split
    · exact ⟨fun p hp => h1 p (List.mem_filter.1 hp).1, ih h2⟩
    · exact ih h2

theorem sorted_erase {m : GoMap α} (h : Sorted m) (k : Bytes) : Sorted (erase m k) := sorted_filter h _

theorem sorted_insertAll {m : GoMap α} (h : Sorted m) (l : List (Bytes × α)) : Sorted (insertAll m l) := by
  induction l generalizing m with
  | nil => exact h
  | cons p l ih => exact ih (sorted_insert h p.1 p.2)

theorem sorted_ofList (l : List (Bytes × α)) : Sorted (ofList l) := sorted_insertAll (m := []) trivial l

theorem get?_none_of_lt {m : GoMap α} {k : Bytes} (h : ∀ p ∈ m, Bytes.lt k p.1 = true) : get? m k = none := by
  induction m with
  | nil => rfl
  | cons q m ih =>
    obtain ⟨a, b⟩ := q
    have h1 := h (a, b) (by simp)
    have : a ≠ k := fun e => by subst e; simp [Bytes.lt_irrefl] at h1
    simp only [get?, this, if_false]
    exact ih (fun p hp => h p (by simp [hp]))

theorem get?_some_mem {m : GoMap α} {k : Bytes} {v : α} (h : get? m k = some v) : (k, v) ∈ m := by
  induction m with
  | nil => simp [get?] at h
  | cons q m ih =>
    obtain ⟨a, b⟩ := q
    simp only [get?] at h
    split at h
    · rename_i e; subst e; simp at h; subst h; simp
    · simp [ih h]

theorem mem_get? {m : GoMap α} (hs : Sorted m) {k : Bytes} {v : α} (h : (k, v) ∈ m) : get? m k = some v := by
  induction m with
  | nil => simp at h
  | cons q m ih =>
    obtain ⟨a, b⟩ := q
    obtain ⟨h1, h2⟩ := hs
    simp at h
    rcases h with ⟨rfl, rfl⟩ | h
    · simp [get?]
    · have hlt := h1 _ h
      have : a ≠ k := Bytes.lt_ne hlt
      simp only [get?, this, if_false]
      exact ih h2 h

/-- Sorted maps with the same lookups are equal: `GoMap` is a canonical form. -/
theorem ext {m m' : GoMap α} (h : Sorted m) (h' : Sorted m') (e : ∀ k, get? m k = get? m' k) : m = m' := by
  induction m generalizing m' with
  | nil =>
    cases m' with
    | nil => rfl
    | cons q m' => obtain ⟨a, b⟩ := q; have := e a; simp [get?] at this
  | cons q m ih =>
    obtain ⟨a, b⟩ := q
    obtain ⟨h1, h2⟩ := h
    cases m' with
    | nil => have := e a; simp [get?] at this
    | cons q' m' =>
      obtain ⟨a', b'⟩ := q'
      obtain ⟨h1', h2'⟩ := h'
      have haa : a = a' := by
        rcases Bytes.lt_trichotomy a a' with h | h | h
        · have := e a
          have hn : get? ((a', b') :: m') a = none :=
            get?_none_of_lt (fun p hp => by
              simp at hp; rcases hp with rfl | hp
              · exact h
              · exact Bytes.lt_trans h (h1' p hp))
          rw [hn] at this; simp [get?] at this
        · exact h
        · have := e a'
          have hn : get? ((a, b) :: m) a' = none :=
            get?_none_of_lt (fun p hp => by
              simp at hp; rcases hp with rfl | hp
              · exact h
              · exact Bytes.lt_trans h (h1 p hp))
          rw [hn] at this; simp [get?] at this
      subst haa
      have hbb : b = b' := by have := e a; simp [get?] at this; exact this
      subst hbb
      congr 1
      apply ih h2 h2'
      intro k
      by_cases hk : a = k
      · subst hk
        rw [get?_none_of_lt h1, get?_none_of_lt h1']
      · have := e k; simpa [get?, hk] using this

theorem insert_comm {m : GoMap α} (h : Sorted m) {k k' : Bytes} (hk : k ≠ k') (v v' : α) :
    insert (insert m k v) k' v' = insert (insert m k' v') k v := by
  apply ext (sorted_insert (sorted_insert h _ _) _ _) (sorted_insert (sorted_insert h _ _) _ _)
  intro x
  simp only [get?_insert]
  by_cases h1 : k = x
  · subst h1; simp [Ne.symm hk]
  · simp [h1]

/-- Inserting a family with distinct keys does not depend on the order. -/
theorem insertAll_perm {m : GoMap α} (h : Sorted m) {l l' : List (Bytes × α)} (hp : l.Perm l')
    (hd : (l.map Prod.fst).Nodup) : insertAll m l = insertAll m l' := by
  induction hp generalizing m with
  | nil => rfl
  | cons p _ ih =>
    simp only [List.map_cons, List.nodup_cons] at hd
    exact ih (sorted_insert h _ _) hd.2
  | swap p q l =>
    simp only [List.map_cons, List.nodup_cons, List.mem_cons, not_or] at hd
    simp only [insertAll, List.foldl_cons]
    rw [insert_comm h hd.1.1]
  | trans hp1 _ ih1 ih2 =>
    rw [ih1 h hd]
    exact ih2 h ((hp1.map _).nodup_iff.1 hd)

theorem get?_insertAll (m : GoMap α) (l : List (Bytes × α)) (k : Bytes) :
    get? (insertAll m l) k = (get? l.reverse k).or (get? m k) := by
  induction l generalizing m with
  | nil => simp [insertAll, get?]
  | cons p l ih =>
    simp only [insertAll, List.foldl_cons] at *
    rw [ih, get?_insert]
    have : ∀ (a b : GoMap α), get? (a ++ b) k = (get? a k).or (get? b k) := by
      intro a b
      induction a with
      | nil => simp [get?]
      | cons q a iha => obtain ⟨x, y⟩ := q; simp only [List.cons_append, get?]; split <;> simp [iha]
    rw [List.reverse_cons, this]
    obtain ⟨a, b⟩ := p
    simp only [get?]
    cases get? l.reverse k <;> simp
    split <;> simp

theorem get?_append (a b : GoMap α) (k : Bytes) : get? (a ++ b) k = (get? a k).or (get? b k) := by
  induction a with
  | nil => simp [get?]
  | cons q a iha => obtain ⟨x, y⟩ := q; simp only [List.cons_append, get?]; split <;> simp [iha]

/-- With distinct keys, first and last occurrence agree. -/
theorem get?_reverse_of_nodup {l : List (Bytes × α)} (hd : (l.map Prod.fst).Nodup) (k : Bytes) :
    get? l.reverse k = get? l k := by
  induction l with
  | nil => rfl
  | cons p l ih =>
    obtain ⟨a, b⟩ := p
    simp only [List.map_cons, List.nodup_cons] at hd
    rw [List.reverse_cons, get?_append, ih hd.2]
    simp only [get?]
    split
    · rename_i e; subst e
      have : get? l a = none := by
        cases hg : get? l a with
        | none => rfl
        | some v => exact absurd (List.mem_map.2 ⟨_, get?_some_mem hg, rfl⟩) hd.1
      simp [this]
    · simp

theorem insert_of_lt {m : GoMap α} {k : Bytes} {v : α} (h : ∀ p ∈ m, Bytes.lt p.1 k = true) :
    insert m k v = m ++ [(k, v)] := by
  induction m with
  | nil => rfl
  | cons q m ih =>
    obtain ⟨a, b⟩ := q
    have h1 := h (a, b) (by simp)
    have hne : k ≠ a := (Bytes.lt_ne h1).symm
    have hnl : Bytes.lt k a = false := Bytes.lt_asymm h1
    simp only [insert, hne, hnl, if_false, List.cons_append, Bool.false_eq_true]
    rw [ih (fun p hp => h p (by simp [hp]))]

theorem sorted_nodup {m : GoMap α} (h : Sorted m) : (m.map Prod.fst).Nodup := by
  induction m with
  | nil => simp
  | cons q m ih =>
    obtain ⟨a, b⟩ := q
    obtain ⟨h1, h2⟩ := h
    simp only [List.map_cons, List.nodup_cons]
    refine ⟨?_, ih h2⟩
    intro hm
    obtain ⟨p, hp, e⟩ := List.mem_map.1 hm
    have := h1 p hp
    rw [e, Bytes.lt_irrefl] at this
    simp at this

/-- Re-inserting a sorted map gives it back: `ofList` is the identity on canonical maps. -/
theorem ofList_of_sorted {m : GoMap α} (h : Sorted m) : ofList m = m := by
  apply ext (sorted_ofList m) h
  intro k
  have := get?_insertAll ([] : GoMap α) m k
  simp only [ofList, insertAll] at *
  rw [this, get?_reverse_of_nodup (sorted_nodup h)]
  simp [get?]

end GoMap
end Verif
