/-
Where paths lead: `filepath.Clean` and the others against Verif.Spec.Spot.
-/
import Verif.Base.Path
import Verif.Spec.Spot

namespace Verif
open Spec

/-- One part followed, as a function. Proof device: models no code. -/
def Spot.go (p : Spot) (c : Bytes) : Spot :=
  if c = [] ∨ c = b!"." then p
  else if c = b!".." then
    if p.down ≠ [] then { p with down := p.down.dropLast }
    else if p.rooted then p else { p with above := p.above + 1 }
  else { p with down := p.down ++ [c] }

theorem follow_iff (p q : Spot) (c : Bytes) : Follow p c q ↔ q = Spot.go p c := by
  constructor
  · intro h
    cases h with
    | stay _ _ h => simp only [Spot.go, h, if_true]
    | enter _ _ h => simp [Spot.go, h]
    | leave r n ds d => simp [Spot.go]
    | atRoot n => simp [Spot.go]
    | further n => simp [Spot.go]
  · rintro rfl
    unfold Spot.go
    split
    · exact .stay _ _ (by assumption)
    · rename_i h1
      simp only [not_or] at h1
      split
      · rename_i h2
        subst h2
        obtain ⟨r, n, ds⟩ := p
        by_cases hd : ds = []
        · subst hd
          cases r
          · simpa using Follow.further n
          · simpa using Follow.atRoot n
        · rw [if_pos hd]
          have := Follow.leave r n ds.dropLast (ds.getLast hd)
          rwa [List.dropLast_concat_getLast hd] at this
      · exact .enter _ _ ⟨h1.1, h1.2, by assumption⟩

theorem followAll_iff (cs : List Bytes) (p q : Spot) : FollowAll p cs q ↔ q = cs.foldl Spot.go p := by
  induction cs generalizing p with
  | nil => exact ⟨fun h => by cases h; rfl, fun h => by subst h; exact .none _⟩
  | cons c cs ih =>
    constructor
    · intro h
      cases h with
      | one h t =>
        rw [follow_iff] at h
        subst h
        exact (ih _).1 t
    · intro h
      exact .one ((follow_iff _ _ _).2 rfl) ((ih _).2 h)

/-- The spot a path leads to. Proof device: models no code. -/
def spotOf (s : Bytes) : Spot := (splitOn 47 s).foldl Spot.go ⟨isRooted s, 0, []⟩

theorem leadsTo_iff (s : Bytes) (p : Spot) : LeadsTo s p ↔ p = spotOf s := by
  have hr : (⟨s.head? = some 47, 0, []⟩ : Spot) = ⟨isRooted s, 0, []⟩ := by simp [isRooted]
  constructor
  · rintro ⟨cs, h1, h2, h3, h4⟩
    rw [hr, followAll_iff] at h4
    have : splitOn 47 s = cs := by rw [h3]; exact splitOn_joinWith 47 cs h2 h1
    rw [spotOf, this]; exact h4
  · rintro rfl
    exact ⟨splitOn 47 s, splitOn_pieces_no_sep 47 s, splitOn_ne_nil 47 s, (joinWith_splitOn 47 s).symm,
      by rw [hr, followAll_iff]; rfl⟩

/-- What the spots of paths are like. Proof device: models no code. -/
structure Spot.Ok (p : Spot) : Prop where
  root : p.rooted = true → p.above = 0
  names : ∀ d ∈ p.down, d ≠ [] ∧ d ≠ b!"." ∧ d ≠ b!".." ∧ 47 ∉ d

/-- The components of the cleaned path, last first. Proof device: models no code. -/
def Spot.stack (p : Spot) : List Bytes := p.down.reverse ++ List.replicate p.above b!".."

theorem Spot.go_rooted (p : Spot) (c : Bytes) : (Spot.go p c).rooted = p.rooted := by
  unfold Spot.go
  split
  · rfl
  · split
    · split
      · rfl
      · split <;> rfl
    · rfl

theorem Spot.go_ok {p : Spot} {c : Bytes} (hc : 47 ∉ c) (h : Spot.Ok p) : Spot.Ok (Spot.go p c) := by
  unfold Spot.go
  split
  · exact h
  · rename_i h1
    simp only [not_or] at h1
    split
    · split
      · exact ⟨h.root, fun d hd => h.names d (List.dropLast_subset _ hd)⟩
      · split
        · exact h
        · rename_i hr
          exact ⟨fun e => absurd e hr, h.names⟩
    · refine ⟨h.root, fun d hd => ?_⟩
      rw [List.mem_append, List.mem_singleton] at hd
      rcases hd with hd | rfl
      · exact h.names d hd
      · exact ⟨h1.1, h1.2, by assumption, hc⟩

theorem Spot.go_stack {p : Spot} {c : Bytes} (h : Spot.Ok p) : cleanStep p.rooted (Spot.stack p) c = Spot.stack (Spot.go p c) := by
  unfold Spot.go cleanStep
  split
  · rfl
  · split
    · rename_i h2
      subst h2
      by_cases hd : p.down = []
      · have e0 : (if p.down ≠ [] then { p with down := p.down.dropLast }
            else if p.rooted then p else { p with above := p.above + 1 }) = if p.rooted then p else { p with above := p.above + 1 } := by
          simp [hd]
        rw [e0]
        cases hr : p.rooted with
        | true => simp [Spot.stack, hd, h.root hr]
        | false =>
          simp only [Spot.stack, hd, List.reverse_nil, List.nil_append, Bool.false_eq_true, if_false]
          cases p.above with
          | zero => rfl
          | succ n => simp [List.replicate_succ]
      · rw [if_pos hd]
        have hl := h.names _ (List.getLast_mem hd)
        have he : p.down.reverse = p.down.getLast hd :: p.down.dropLast.reverse := by
          conv => lhs; rw [← List.dropLast_concat_getLast hd]
          simp
        simp only [Spot.stack, he, List.cons_append]
        rw [if_neg hl.2.2.1]
    · simp [Spot.stack]

theorem fold_go (cs : List Bytes) (hc : ∀ c ∈ cs, (47 : UInt8) ∉ c) : ∀ p : Spot, Spot.Ok p →
    Spot.Ok (cs.foldl Spot.go p) ∧ (cs.foldl Spot.go p).rooted = p.rooted ∧
      cs.foldl (cleanStep p.rooted) (Spot.stack p) = Spot.stack (cs.foldl Spot.go p) := by
  induction cs with
  | nil => intro p h; exact ⟨h, rfl, rfl⟩
  | cons c cs ih =>
    intro p h
    have := ih (fun d hd => hc d (List.mem_cons_of_mem _ hd)) (Spot.go p c) (Spot.go_ok (hc c (by simp)) h)
    simp only [List.foldl_cons]
    rw [Spot.go_rooted] at this
    rw [Spot.go_stack h]
    exact this

theorem spotOf_ok (s : Bytes) : Spot.Ok (spotOf s) ∧ (spotOf s).rooted = isRooted s ∧ cleanComps s = Spot.stack (spotOf s) := by
  have := fold_go (splitOn 47 s) (splitOn_pieces_no_sep 47 s) ⟨isRooted s, 0, []⟩ ⟨fun _ => rfl, by simp⟩
  exact this

theorem Spot.stack_inj {p q : Spot} (hp : Spot.Ok p) (hq : Spot.Ok q) (hr : p.rooted = q.rooted) (h : Spot.stack p = Spot.stack q) :
    p = q := by
  have key : ∀ (a b : List Bytes) (m n : Nat), (∀ x ∈ a, x ≠ b!"..") → (∀ x ∈ b, x ≠ b!"..") →
      a ++ List.replicate m b!".." = b ++ List.replicate n b!".." → a = b ∧ m = n := by
    intro a
    induction a with
    | nil =>
      intro b m n _ hb h
      cases b with
      | nil => exact ⟨rfl, by simpa using congrArg List.length h⟩
      | cons y b =>
        cases m with
        | zero => simp at h
        | succ m =>
          simp only [List.nil_append, List.replicate_succ, List.cons_append, List.cons.injEq] at h
          exact absurd h.1.symm (hb y (by simp))
    | cons x a ih =>
      intro b m n ha hb h
      cases b with
      | nil =>
        cases n with
        | zero => simp at h
        | succ n =>
          simp only [List.nil_append, List.replicate_succ, List.cons_append, List.cons.injEq] at h
          exact absurd h.1 (ha x (by simp))
      | cons y b =>
        simp only [List.cons_append, List.cons.injEq] at h
        obtain ⟨e1, e2⟩ := ih b m n (fun z hz => ha z (by simp [hz])) (fun z hz => hb z (by simp [hz])) h.2
        exact ⟨by rw [h.1, e1], e2⟩
  obtain ⟨e1, e2⟩ := key _ _ _ _ (fun x hx => (hp.names x (List.mem_reverse.1 hx)).2.2.1)
    (fun x hx => (hq.names x (List.mem_reverse.1 hx)).2.2.1) h
  obtain ⟨r, n, d⟩ := p
  obtain ⟨r', n', d'⟩ := q
  simp only at hr e2
  have e3 : d = d' := List.reverse_inj.1 e1
  subst hr; subst e2; subst e3; rfl

theorem cleanPath_parts (s : Bytes) : isRooted (cleanPath s) = isRooted s ∧ cleanComps (cleanPath s) = cleanComps s := by
  have hst := cleanStack_cleanComps s
  have hinv := cleanComps_inv s
  unfold cleanPath
  generalize hcs : cleanComps s = st at hst hinv
  cases hr : isRooted s with
  | true =>
    rw [hr] at hst
    have e1 : renderPath true st.reverse = 47 :: joinWith b!"/" st.reverse := by simp [renderPath]
    rw [e1]
    have e2 : isRooted (47 :: joinWith b!"/" st.reverse) = true := by simp [isRooted]
    refine ⟨e2, ?_⟩
    unfold cleanComps
    rw [e2]
    simp only [splitOn]
    cases st with
    | nil => decide
    | cons t st =>
      rw [splitOn_joinWith 47 _ (by simp) (fun p hp => (hinv p (List.mem_reverse.1 hp)).2.2)]
      simp only [if_true, List.foldl_cons, foldl_cleanStep_skip]
      exact cleanStack_rebuild hst
  | false =>
    rw [hr] at hst
    cases st with
    | nil => decide
    | cons t st =>
      have e1 : renderPath false (t :: st).reverse = joinWith b!"/" (t :: st).reverse := by simp [renderPath]
      rw [e1]
      have e2 : isRooted (joinWith b!"/" (t :: st).reverse) = false := by
        simp only [isRooted, decide_eq_false_iff_not]
        exact joinWith_head (fun x hx => ⟨(hinv x (List.mem_reverse.1 hx)).1, (hinv x (List.mem_reverse.1 hx)).2.2⟩)
      refine ⟨e2, ?_⟩
      unfold cleanComps
      rw [e2, splitOn_joinWith 47 _ (by simp) (fun p hp => (hinv p (List.mem_reverse.1 hp)).2.2)]
      exact cleanStack_rebuild hst

theorem spotOf_clean (s : Bytes) : spotOf (cleanPath s) = spotOf s := by
  obtain ⟨h1, h2⟩ := cleanPath_parts s
  obtain ⟨a1, a2, a3⟩ := spotOf_ok s
  obtain ⟨b1, b2, b3⟩ := spotOf_ok (cleanPath s)
  exact Spot.stack_inj b1 a1 (by rw [b2, a2, h1]) (by rw [← b3, ← a3, h2])

theorem cleanPath_of_spot (s : Bytes) : cleanPath s = renderPath (spotOf s).rooted (Spot.stack (spotOf s)).reverse := by
  obtain ⟨_, a2, a3⟩ := spotOf_ok s
  rw [cleanPath, a2, a3]

theorem cleanPath_eq_iff (s t : Bytes) : cleanPath s = cleanPath t ↔ spotOf s = spotOf t := by
  constructor
  · intro h; rw [← spotOf_clean s, h, spotOf_clean]
  · intro h; rw [cleanPath_of_spot, h, ← cleanPath_of_spot]

theorem sameSpot_iff (s t : Bytes) : SameSpot s t ↔ spotOf s = spotOf t := by
  constructor
  · rintro ⟨p, h1, h2⟩
    rw [leadsTo_iff] at h1 h2
    rw [← h1, ← h2]
  · intro h
    exact ⟨spotOf s, (leadsTo_iff _ _).2 rfl, (leadsTo_iff _ _).2 h⟩

theorem splitOn_append_mid (sep : UInt8) (s t : Bytes) : splitOn sep (s ++ sep :: t) = splitOn sep s ++ splitOn sep t := by
  induction s with
  | nil => simp [splitOn]
  | cons c s ih =>
    simp only [List.cons_append, splitOn]
    split
    · simp [ih]
    · rw [ih]
      cases hs : splitOn sep s with
      | nil => exact absurd hs (splitOn_ne_nil _ _)
      | cons p ps => simp

theorem spotOf_append {a b : Bytes} (ha : a ≠ []) : spotOf (a ++ 47 :: b) = (splitOn 47 b).foldl Spot.go (spotOf a) := by
  simp only [spotOf, splitOn_append_mid, List.foldl_append, isRooted_append ha]

theorem spotOf_append_congr {a a' b : Bytes} (ha : a ≠ []) (ha' : a' ≠ []) (h : spotOf a = spotOf a') :
    spotOf (a ++ 47 :: b) = spotOf (a' ++ 47 :: b) := by
  rw [spotOf_append ha, spotOf_append ha', h]

theorem go_comp {p : Spot} {c : Bytes} (h : IsComp c) : Spot.go p c = p.child c := by
  simp [Spot.go, h.1, h.2.1, h.2.2.1, Spot.child]

theorem spotOf_snoc {a c : Bytes} (ha : a ≠ []) (hc : IsComp c) : spotOf (a ++ 47 :: c) = (spotOf a).child c := by
  rw [spotOf_append ha, splitOn_of_not_mem 47 c hc.2.2.2]
  exact go_comp hc

theorem spotOf_comp {c : Bytes} (hc : IsComp c) : spotOf c = ⟨false, 0, [c]⟩ := by
  have hr : isRooted c = false := by
    cases c with
    | nil => rfl
    | cons x c =>
      have := hc.2.2.2
      simp only [List.mem_cons, not_or] at this
      simpa [isRooted] using fun e : x = 47 => this.1 e.symm
  rw [spotOf, splitOn_of_not_mem 47 c hc.2.2.2, hr]
  exact go_comp hc

theorem spotOf_join {d n : Bytes} (hn : IsComp n) : spotOf (joinPath d n) = (spotOf d).child n := by
  unfold joinPath
  split
  · rename_i h
    subst h
    rw [if_neg hn.1, spotOf_clean, spotOf_comp hn]
    rfl
  · rename_i h
    rw [if_neg hn.1, spotOf_clean, spotOf_snoc h hn]

theorem spot_child_inj {p q : Spot} {m n : Bytes} (h : p.child m = q.child n) : p = q ∧ m = n := by
  obtain ⟨a, b, c⟩ := p
  obtain ⟨a', b', c'⟩ := q
  simp only [Spot.child, Spot.mk.injEq] at h
  obtain ⟨h1, h2, h3⟩ := h
  have := List.append_inj' h3 rfl
  exact ⟨by rw [h1, h2, this.1], by simpa using this.2⟩

end Verif
