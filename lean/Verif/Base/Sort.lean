/- Insertion sort, used for Go's `sort.Strings`, `os.ReadDir` and (short slices) `slices.SortFunc`. -/
import Verif.Base.BytesLemmas

namespace Verif
variable {α : Type}

/-- Insert before the first element that `x` is not to be placed after. Go standard library (sort),
used by libcni/api.go:430-488 `CNIConfig.GetCachedAttachments` and libcni/conf.go:327-347 `LoadConf`. -/
def insertBy (le : α → α → Bool) (x : α) : List α → List α
  | [] => [x]
  | y :: l => if le x y then x :: y :: l else y :: insertBy le x l

/-- Go standard library (sort), used by libcni/api.go:430-488 `CNIConfig.GetCachedAttachments` and
libcni/conf.go:327-347 `LoadConf`. -/
def sortBy (le : α → α → Bool) : List α → List α
  | [] => []
  | x :: l => insertBy le x (sortBy le l)

theorem insertBy_perm (le : α → α → Bool) (x : α) (l : List α) : (insertBy le x l).Perm (x :: l) := by
  induction l with
  | nil => exact .refl _
  | cons y l ih =>
    simp only [insertBy]
    split
    · exact .refl _
    · exact (List.Perm.cons y ih).trans (List.Perm.swap x y l)

theorem sortBy_perm (le : α → α → Bool) (l : List α) : (sortBy le l).Perm l := by
  induction l with
  | nil => exact .refl _
  | cons x l ih => exact (insertBy_perm le x _).trans (.cons x ih)

/-- If `le` is total and transitive on the elements, the result is sorted. -/
theorem insertBy_pairwise {le : α → α → Bool} {x : α} {l : List α}
    (tot : ∀ a ∈ x :: l, ∀ b ∈ x :: l, le a b = true ∨ le b a = true)
    (trans : ∀ a ∈ x :: l, ∀ b ∈ x :: l, ∀ c ∈ x :: l, le a b = true → le b c = true → le a c = true)
    (h : l.Pairwise (fun a b => le a b = true)) : (insertBy le x l).Pairwise (fun a b => le a b = true) := by
  induction l with
  | nil => simp [insertBy]
  | cons y l ih =>
    rw [List.pairwise_cons] at h
    simp only [insertBy]
    by_cases hxy : le x y = true
    · rw [if_pos hxy]
      refine List.pairwise_cons.2 ⟨?_, List.pairwise_cons.2 h⟩
      intro z hz
      rw [List.mem_cons] at hz
      rcases hz with rfl | hz
      · exact hxy
      · exact trans x (by simp) y (by simp) z (by simp [hz]) hxy (h.1 z hz)
    · rw [if_neg hxy]
      have sub : ∀ a ∈ x :: l, a ∈ x :: y :: l := by
        intro a ha; rw [List.mem_cons] at ha; rcases ha with rfl | ha <;> simp [*]
      refine List.pairwise_cons.2 ⟨?_, ih (fun a ha b hb => tot a (sub a ha) b (sub b hb))
        (fun a ha b hb c hc => trans a (sub a ha) b (sub b hb) c (sub c hc)) h.2⟩
      intro z hz
      have := (insertBy_perm le x l).mem_iff.1 hz
      rw [List.mem_cons] at this
      rcases this with rfl | hz
      · exact (tot z (by simp) y (by simp)).resolve_left hxy
      · exact h.1 z hz

theorem sortBy_pairwise {le : α → α → Bool} {l : List α}
    (tot : ∀ a ∈ l, ∀ b ∈ l, le a b = true ∨ le b a = true)
    (trans : ∀ a ∈ l, ∀ b ∈ l, ∀ c ∈ l, le a b = true → le b c = true → le a c = true) :
    (sortBy le l).Pairwise (fun a b => le a b = true) := by
  induction l with
  | nil => exact .nil
  | cons x l ih =>
    have ml : ∀ a ∈ l, a ∈ x :: l := fun a ha => List.mem_cons_of_mem _ ha
    have m : ∀ a ∈ x :: sortBy le l, a ∈ x :: l := by
      intro a ha
      rw [List.mem_cons] at ha ⊢
      exact ha.imp id ((sortBy_perm le l).mem_iff.1)
    exact insertBy_pairwise (fun a ha b hb => tot a (m a ha) b (m b hb))
      (fun a ha b hb c hc => trans a (m a ha) b (m b hb) c (m c hc))
      (ih (fun a ha b hb => tot a (ml a ha) b (ml b hb))
        (fun a ha b hb c hc => trans a (ml a ha) b (ml b hb) c (ml c hc)))

/-- Sorting with any comparison that decides between `R a b` and `R b a` (ties either way) sorts by a transitive `R`. -/
theorem sortBy_pairwise_rel {le : α → α → Bool} {R : α → α → Prop} {l : List α}
    (h1 : ∀ a ∈ l, ∀ b ∈ l, le a b = true → R a b) (h2 : ∀ a ∈ l, ∀ b ∈ l, le a b = false → R b a)
    (trans : ∀ a ∈ l, ∀ b ∈ l, ∀ c ∈ l, R a b → R b c → R a c) : (sortBy le l).Pairwise R := by
  have ins : ∀ (x : α) (s : List α), (∀ a ∈ x :: s, a ∈ l) → s.Pairwise R → (insertBy le x s).Pairwise R := by
    intro x s
    induction s with
    | nil => intro _ _; simp [insertBy]
    | cons y s ih =>
      intro hm h
      rw [List.pairwise_cons] at h
      have hx := hm x (by simp)
      have hy := hm y (by simp)
      simp only [insertBy]
      cases hxy : le x y with
      | true =>
        rw [if_pos rfl]
        have r := h1 x hx y hy hxy
        refine List.pairwise_cons.2 ⟨?_, List.pairwise_cons.2 h⟩
        intro z hz
        rw [List.mem_cons] at hz
        rcases hz with rfl | hz
        · exact r
        · exact trans x hx y hy z (hm z (by simp [hz])) r (h.1 z hz)
      | false =>
        rw [if_neg (by simp)]
        refine List.pairwise_cons.2 ⟨?_, ih (fun a ha => hm a (by
          rw [List.mem_cons] at ha; rcases ha with rfl | ha <;> simp [*])) h.2⟩
        intro z hz
        have := (insertBy_perm le x s).mem_iff.1 hz
        rw [List.mem_cons] at this
        rcases this with rfl | hz
        · exact h2 z hx y hy hxy
        · exact h.1 z hz
  have main : ∀ s : List α, (∀ a ∈ s, a ∈ l) → (sortBy le s).Pairwise R := by
    intro s
    induction s with
    | nil => intro _; exact .nil
    | cons x s ih =>
      intro hm
      refine ins x _ ?_ (ih fun a ha => hm a (by simp [ha]))
      intro a ha
      rw [List.mem_cons] at ha
      rcases ha with rfl | ha
      · exact hm a (by simp)
      · exact hm a (by simp [(sortBy_perm le s).mem_iff.1 ha])
  exact main l fun _ h => h

/-- Two sorted permutations of each other agree, when `le` is antisymmetric. -/
theorem sorted_perm_unique {le : α → α → Bool} {l l' : List α} (hp : l.Perm l')
    (anti : ∀ a ∈ l, ∀ b ∈ l, le a b = true → le b a = true → a = b)
    (h : l.Pairwise (fun a b => le a b = true)) (h' : l'.Pairwise (fun a b => le a b = true)) : l = l' := by
  induction l generalizing l' with
  | nil => exact (List.Perm.nil_eq hp)
  | cons x l ih =>
    cases l' with
    | nil => exact absurd hp.length_eq (by simp)
    | cons y l' =>
      rw [List.pairwise_cons] at h h'
      have hx : x ∈ y :: l' := hp.mem_iff.1 (by simp)
      have hy : y ∈ x :: l := hp.mem_iff.2 (by simp)
      have e : x = y := by
        rw [List.mem_cons] at hx hy
        rcases hx with hx | hx
        · exact hx
        · rcases hy with hy | hy
          · exact hy.symm
          · exact anti x (by simp) y (by simp [hy]) (h.1 y hy) (h'.1 x hx)
      subst e
      rw [ih (List.Perm.cons_inv hp) (fun a ha b hb => anti a (by simp [ha]) b (by simp [hb])) h.2 h'.2]

/-- `a ≤ b` on Go strings. Go standard library (sort), used by
libcni/api.go:430-488 `CNIConfig.GetCachedAttachments` and libcni/conf.go:327-347 `LoadConf`. -/
def bytesLe (a b : Bytes) : Bool := !Bytes.lt b a

theorem bytesLe_total (a b : Bytes) : bytesLe a b = true ∨ bytesLe b a = true := by
  rcases Bytes.lt_trichotomy a b with h | h | h
  · exact Or.inl (by simp [bytesLe, Bytes.lt_asymm h])
  · subst h; exact Or.inl (by simp [bytesLe, Bytes.lt_irrefl])
  · exact Or.inr (by simp [bytesLe, Bytes.lt_asymm h])

theorem bytesLe_antisymm {a b : Bytes} (h1 : bytesLe a b = true) (h2 : bytesLe b a = true) : a = b := by
  rcases Bytes.lt_trichotomy a b with h | h | h
  · simp [bytesLe, h] at h2
  · exact h
  · simp [bytesLe, h] at h1

theorem bytesLe_trans {a b c : Bytes} (h1 : bytesLe a b = true) (h2 : bytesLe b c = true) : bytesLe a c = true := by
  rcases Bytes.lt_trichotomy a b with h | h | h
  · rcases Bytes.lt_trichotomy b c with h' | h' | h'
    · simp [bytesLe, Bytes.lt_asymm (Bytes.lt_trans h h')]
    · subst h'; exact h1
    · simp [bytesLe, h'] at h2
  · subst h; exact h2
  · simp [bytesLe, h] at h1

/-- `sort.Strings`. Go standard library (sort), used by libcni/api.go:430-488 `CNIConfig.GetCachedAttachments`
and libcni/conf.go:327-347 `LoadConf`. -/
def sortStrings (l : List Bytes) : List Bytes := sortBy bytesLe l

theorem sortStrings_perm (l : List Bytes) : (sortStrings l).Perm l := sortBy_perm _ _

theorem sortStrings_sorted (l : List Bytes) : (sortStrings l).Pairwise (fun a b => bytesLe a b = true) :=
  sortBy_pairwise (fun a _ b _ => bytesLe_total a b) (fun _ _ _ _ _ _ h1 h2 => bytesLe_trans h1 h2)

theorem sortStrings_congr {l l' : List Bytes} (h : l.Perm l') : sortStrings l = sortStrings l' :=
  sorted_perm_unique (((sortStrings_perm l).trans h).trans (sortStrings_perm l').symm)
    (fun _ _ _ _ h1 h2 => bytesLe_antisymm h1 h2) (sortStrings_sorted l) (sortStrings_sorted l')

theorem sortStrings_of_sorted {l : List Bytes} (h : l.Pairwise (fun a b => bytesLe a b = true)) : sortStrings l = l :=
  sorted_perm_unique (sortStrings_perm l) (fun _ _ _ _ h1 h2 => bytesLe_antisymm h1 h2) (sortStrings_sorted l) h

example : sortStrings [b!"20-b", b!"10-a", b!"100-c"] = [b!"10-a", b!"100-c", b!"20-b"] := by decide

end Verif
