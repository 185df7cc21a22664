/-
Slash-separated paths: Go's `path/filepath` functions `Clean`, `Join`, `Dir`, `Ext`, `SplitList` (Unix), as far as
the repository uses them. Standard-library behaviour.
-/
import Verif.Base.BytesLemmas

namespace Verif

/-- One component processed by `filepath.Clean`; the stack is reversed. Go standard library
(path/filepath), used by libcni/api.go:252-257 `CNIConfig.getCacheFilePath`,
libcni/conf.go:298-324 `ConfFiles` and pkg/invoke/find.go:25-48 `FindInPath`. -/
def cleanStep (rooted : Bool) (stack : List Bytes) (c : Bytes) : List Bytes :=
  if c = [] ∨ c = b!"." then stack
  else if c = b!".." then
    match stack with
    | [] => if rooted then [] else [c]
    | t :: st => if t = b!".." then c :: t :: st else st
  else c :: stack

/-- Go standard library (path/filepath), used by libcni/api.go:252-257 `CNIConfig.getCacheFilePath`,
libcni/conf.go:298-324 `ConfFiles` and pkg/invoke/find.go:25-48 `FindInPath`. -/
def isRooted (s : Bytes) : Bool := s.head? = some 47

/-- The components of the cleaned path, last first. Go standard library (path/filepath), used by
libcni/api.go:252-257 `CNIConfig.getCacheFilePath`, libcni/conf.go:298-324 `ConfFiles` and
pkg/invoke/find.go:25-48 `FindInPath`. -/
def cleanComps (s : Bytes) : List Bytes := (splitOn 47 s).foldl (cleanStep (isRooted s)) []

/-- Go standard library (path/filepath), used by libcni/api.go:252-257 `CNIConfig.getCacheFilePath`,
libcni/conf.go:298-324 `ConfFiles` and pkg/invoke/find.go:25-48 `FindInPath`. -/
def renderPath (rooted : Bool) (comps : List Bytes) : Bytes :=
  if rooted then 47 :: joinWith b!"/" comps
  else if comps = [] then b!"." else joinWith b!"/" comps

/-- `filepath.Clean`. Go standard library (path/filepath), used by
libcni/api.go:252-257 `CNIConfig.getCacheFilePath`, libcni/conf.go:298-324 `ConfFiles` and pkg/invoke/find.go:25-48 `FindInPath`. -/
def cleanPath (s : Bytes) : Bytes := renderPath (isRooted s) (cleanComps s).reverse

/-- `filepath.Join(a, b)`. Go standard library (path/filepath), used by
libcni/api.go:252-257 `CNIConfig.getCacheFilePath`, libcni/conf.go:298-324 `ConfFiles` and pkg/invoke/find.go:25-48 `FindInPath`. -/
def joinPath (a b : Bytes) : Bytes :=
  if a = [] then (if b = [] then [] else cleanPath b)
  else if b = [] then cleanPath a
  else cleanPath (a ++ 47 :: b)

/-- `filepath.Dir`. Go standard library (path/filepath), used by
libcni/conf.go:247-272 `NetworkConfFromFile` and libcni/api.go:259-297 `CNIConfig.cacheAdd`. -/
def dirPath (s : Bytes) : Bytes := cleanPath (s.take (s.length - (s.reverse.takeWhile (· ≠ 47)).length))

/-- `filepath.Ext`: from the last dot of the last component, dot included; empty if there is none.
Go standard library (path/filepath), used by libcni/conf.go:298-324 `ConfFiles`. -/
def extPath (s : Bytes) : Bytes :=
  let tail := s.reverse.takeWhile (fun c => c ≠ 46 ∧ c ≠ 47)
  match s.reverse.drop tail.length with
  | 46 :: _ => 46 :: tail.reverse
  | _ => []

/-- `filepath.SplitList` on Unix. Go standard library (path/filepath), used by
pkg/invoke/delegate.go:25-37 `delegateCommon`. -/
def splitList (s : Bytes) : List Bytes := if s = [] then [] else splitOn 58 s

example : cleanPath b!"/a/./b//../c/" = b!"/a/c" ∧ cleanPath b!"../../x/.." = b!"../.." ∧ cleanPath b!"/../a" = b!"/a"
    ∧ cleanPath [] = b!"." ∧ cleanPath b!"/" = b!"/" := by decide
example : joinPath b!"/var/lib/cni/" b!"results" = b!"/var/lib/cni/results" ∧ joinPath [] b!"x" = b!"x" := by decide
example : dirPath b!"/a/b/c" = b!"/a/b" ∧ dirPath b!"c" = b!"." ∧ dirPath b!"/c" = b!"/" := by decide
example : extPath b!"/d/10-net.conflist" = b!".conflist" ∧ extPath b!"a.b/c" = [] ∧ extPath b!"x.conf" = b!".conf" := by decide

/-- A path component proper. Proof device: models no code. -/
def IsComp (c : Bytes) : Prop := c ≠ [] ∧ c ≠ b!"." ∧ c ≠ b!".." ∧ 47 ∉ c

theorem cleanStep_comp {rooted : Bool} {st : List Bytes} {c : Bytes} (h : IsComp c) : cleanStep rooted st c = c :: st := by
  simp [cleanStep, h.1, h.2.1, h.2.2.1]

theorem splitOn_snoc (sep : UInt8) (s t : Bytes) (h : sep ∉ t) : splitOn sep (s ++ sep :: t) = splitOn sep s ++ [t] := by
  induction s with
  | nil => simp [splitOn, splitOn_of_not_mem sep t h]
  | cons c s ih =>
    simp only [List.cons_append, splitOn]
    split
    · simp [ih]
    · rw [ih]
      cases hs : splitOn sep s with
      | nil => exact absurd hs (splitOn_ne_nil _ _)
      | cons p ps => simp

theorem isRooted_append {a b : Bytes} (h : a ≠ []) : isRooted (a ++ b) = isRooted a := by
  cases a with
  | nil => exact absurd rfl h
  | cons c a => rfl

theorem cleanComps_snoc {a c : Bytes} (ha : a ≠ []) (hc : IsComp c) : cleanComps (a ++ 47 :: c) = c :: cleanComps a := by
  simp only [cleanComps, splitOn_snoc 47 a c hc.2.2.2, List.foldl_append, List.foldl_cons, List.foldl_nil,
    isRooted_append ha, cleanStep_comp hc]

/-- A file directly inside a (cleaned) directory. The path of a file listed by
libcni/conf.go:298-324 `ConfFiles` or named by libcni/api.go:252-257 `CNIConfig.getCacheFilePath`. -/
def childPath (dir name : Bytes) : Bytes :=
  if dir = b!"/" then 47 :: name else if dir = b!"." then name else dir ++ 47 :: name

theorem joinWith_snoc (ps : List Bytes) (c : Bytes) (h : ps ≠ []) :
    joinWith b!"/" (ps ++ [c]) = joinWith b!"/" ps ++ 47 :: c := by
  induction ps with
  | nil => exact absurd rfl h
  | cons p ps ih =>
    cases ps with
    | nil => simp [joinWith]
    | cons q ps =>
      simp only [List.cons_append, joinWith] at ih ⊢
      rw [ih (by simp)]; simp

theorem joinWith_eq_nil {sep : Bytes} (hs : sep ≠ []) {ps : List Bytes} (h : joinWith sep ps = []) : ps = [] ∨ ps = [[]] := by
  cases ps with
  | nil => exact Or.inl rfl
  | cons p ps =>
    cases ps with
    | nil => right; simpa [joinWith] using h
    | cons q ps => simp [joinWith, hs] at h

theorem cleanStep_inv {rooted : Bool} {st : List Bytes} {c : Bytes} (hc : 47 ∉ c)
    (h : ∀ x ∈ st, x ≠ [] ∧ x ≠ b!"." ∧ 47 ∉ x) : ∀ x ∈ cleanStep rooted st c, x ≠ [] ∧ x ≠ b!"." ∧ 47 ∉ x := by
  unfold cleanStep
  split
  · exact h
  · rename_i h1
    simp only [not_or] at h1
    split
    · rename_i h2
      cases st with
      | nil =>
        simp only []
        split
        · simp
        · intro x hx; simp at hx; subst hx; exact ⟨h1.1, h1.2, hc⟩
      | cons t st =>
        simp only []
        split
        · intro x hx
          rw [List.mem_cons] at hx
          rcases hx with rfl | hx
          · exact ⟨h1.1, h1.2, hc⟩
          · exact h x hx
        · exact fun x hx => h x (List.mem_cons_of_mem _ hx)
    · intro x hx
      rw [List.mem_cons] at hx
      rcases hx with rfl | hx
      · exact ⟨h1.1, h1.2, hc⟩
      · exact h x hx

theorem cleanComps_inv (s : Bytes) : ∀ x ∈ cleanComps s, x ≠ [] ∧ x ≠ b!"." ∧ 47 ∉ x := by
  unfold cleanComps
  have hp := splitOn_pieces_no_sep 47 s
  generalize splitOn 47 s = l at hp
  have : ∀ (l : List Bytes) (st : List Bytes), (∀ p ∈ l, 47 ∉ p) → (∀ x ∈ st, x ≠ [] ∧ x ≠ b!"." ∧ 47 ∉ x) →
      ∀ x ∈ l.foldl (cleanStep (isRooted s)) st, x ≠ [] ∧ x ≠ b!"." ∧ 47 ∉ x := by
    intro l
    induction l with
    | nil => intro st _ h; exact h
    | cons p l ih =>
      intro st hl h
      exact ih _ (fun q hq => hl q (List.mem_cons_of_mem _ hq)) (cleanStep_inv (hl p (by simp)) h)
  exact this l [] hp (by simp)

/-- Joining a directory with a proper file name gives a direct child of the cleaned directory. -/
theorem joinPath_child {dir name : Bytes} (hd : dir ≠ []) (hn : IsComp name) :
    joinPath dir name = childPath (cleanPath dir) name := by
  have e : joinPath dir name = cleanPath (dir ++ 47 :: name) := by simp [joinPath, hd, hn.1]
  rw [e]
  unfold cleanPath
  rw [cleanComps_snoc hd hn, isRooted_append hd]
  have hinv := cleanComps_inv dir
  generalize cleanComps dir = st at hinv
  simp only [List.reverse_cons]
  cases hr : isRooted dir with
  | true =>
    cases st with
    | nil => simp [renderPath, joinWith, childPath]
    | cons t st =>
      have hne : (t :: st).reverse ≠ [] := by simp
      have h1 : renderPath true (t :: st).reverse ≠ b!"/" := by
        simp only [renderPath, if_true]
        intro h
        simp only [List.cons.injEq, true_and] at h
        rcases joinWith_eq_nil (by decide) h with h | h
        · exact hne h
        · exact (hinv [] (by rw [← List.mem_reverse, h]; simp)).1 rfl
      have h2 : renderPath true (t :: st).reverse ≠ b!"." := by simp [renderPath]
      rw [childPath, if_neg h1, if_neg h2]
      simp only [renderPath, if_true]
      rw [joinWith_snoc _ _ hne]; rfl
  | false =>
    cases st with
    | nil => simp [renderPath, joinWith, childPath]
    | cons t st =>
      have hne : (t :: st).reverse ≠ [] := by simp
      have e2 : renderPath false (t :: st).reverse = joinWith b!"/" (t :: st).reverse := by simp [renderPath]
      have e3 : renderPath false ((t :: st).reverse ++ [name]) = joinWith b!"/" ((t :: st).reverse ++ [name]) := by
        simp [renderPath]
      rw [e2, e3, joinWith_snoc _ _ hne]
      have h1 : joinWith b!"/" (t :: st).reverse ≠ b!"/" ∧ joinWith b!"/" (t :: st).reverse ≠ b!"." := by
        cases hrev : (t :: st).reverse with
        | nil => exact absurd hrev hne
        | cons a l =>
          have ha := hinv a (by rw [← List.mem_reverse, hrev]; simp)
          cases l with
          | nil =>
            refine ⟨?_, ?_⟩
            · simp only [joinWith]; rintro rfl; exact ha.2.2 (by simp)
            · simpa only [joinWith] using ha.2.1
          | cons b l =>
            have hb := hinv b (by rw [← List.mem_reverse, hrev]; simp)
            have hl : ∀ {q : UInt8}, joinWith b!"/" (a :: b :: l) ≠ [q] := by
              intro q h
              have := congrArg List.length h
              simp only [joinWith, List.length_append, List.length_cons, List.length_nil] at this
              have : a ≠ [] := ha.1
              have := List.length_pos_iff.2 this
              omega
            exact ⟨hl, hl⟩
      rw [childPath, if_neg h1.1, if_neg h1.2]

/-! ### cleaning twice -/

/-- A cleaned (reversed) stack: proper components, and `..` only at the bottom of a relative path.
Proof device: models no code. -/
def CleanStack (rooted : Bool) : List Bytes → Prop
  | [] => True
  | c :: st => (c ≠ [] ∧ c ≠ b!"." ∧ 47 ∉ c) ∧ CleanStack rooted st ∧ (c = b!".." → rooted = false ∧ ∀ x ∈ st, x = b!"..")

theorem cleanStack_step {rooted : Bool} {st : List Bytes} {c : Bytes} (hc : 47 ∉ c) (h : CleanStack rooted st) :
    CleanStack rooted (cleanStep rooted st c) := by
  unfold cleanStep
  split
  · exact h
  · rename_i h1
    simp only [not_or] at h1
    split
    · rename_i h2
      subst h2
      cases st with
      | nil =>
        simp only []
        split
        · trivial
        · rename_i hr
          refine ⟨⟨by decide, by decide, by decide⟩, trivial, fun _ => ⟨by simpa using hr, by simp⟩⟩
      | cons t st =>
        simp only []
        split
        · rename_i ht
          refine ⟨⟨by decide, by decide, by decide⟩, h, fun _ => ⟨(h.2.2 ht).1, ?_⟩⟩
          intro x hx
          rw [List.mem_cons] at hx
          rcases hx with rfl | hx
          · exact ht
          · exact (h.2.2 ht).2 x hx
        · exact h.2.1
    · rename_i h2
      exact ⟨⟨h1.1, h1.2, hc⟩, h, fun e => absurd e h2⟩

theorem cleanStack_cleanComps (s : Bytes) : CleanStack (isRooted s) (cleanComps s) := by
  unfold cleanComps
  have hp := splitOn_pieces_no_sep 47 s
  generalize splitOn 47 s = l at hp
  have : ∀ (l : List Bytes) (st : List Bytes), (∀ p ∈ l, 47 ∉ p) → CleanStack (isRooted s) st →
      CleanStack (isRooted s) (l.foldl (cleanStep (isRooted s)) st) := by
    intro l
    induction l with
    | nil => intro st _ h; exact h
    | cons p l ih =>
      intro st hl h
      exact ih _ (fun q hq => hl q (List.mem_cons_of_mem _ hq)) (cleanStack_step (hl p (by simp)) h)
  exact this l [] hp trivial

theorem cleanStack_rebuild {rooted : Bool} {st : List Bytes} (h : CleanStack rooted st) :
    st.reverse.foldl (cleanStep rooted) [] = st := by
  induction st with
  | nil => rfl
  | cons c st ih =>
    simp only [List.reverse_cons, List.foldl_append, List.foldl_cons, List.foldl_nil, ih h.2.1]
    unfold cleanStep
    rw [if_neg (by simp [h.1.1, h.1.2.1])]
    split
    · rename_i hc
      obtain ⟨hr, hall⟩ := h.2.2 hc
      cases st with
      | nil => simp [hr]
      | cons t st => simp [hall t (by simp)]
    · rfl

/-- The first byte of a relative cleaned path is not a slash. -/
theorem joinWith_head {ps : List Bytes} (h : ∀ x ∈ ps, x ≠ [] ∧ 47 ∉ x) : (joinWith b!"/" ps).head? ≠ some 47 := by
  cases ps with
  | nil => simp [joinWith]
  | cons p ps =>
    obtain ⟨h1, h2⟩ := h p (by simp)
    cases p with
    | nil => exact absurd rfl h1
    | cons c p =>
      have : c ≠ 47 := by rintro rfl; simp at h2
      cases ps <;> simpa [joinWith] using this

theorem foldl_cleanStep_skip (rooted : Bool) (st : List Bytes) : cleanStep rooted st [] = st := by simp [cleanStep]

/-- `filepath.Clean` of a cleaned path changes nothing. -/
theorem cleanPath_idem (s : Bytes) : cleanPath (cleanPath s) = cleanPath s := by
  have hst := cleanStack_cleanComps s
  have hinv := cleanComps_inv s
  unfold cleanPath
  generalize hcs : cleanComps s = st at hst hinv
  cases hr : isRooted s with
  | true =>
    rw [hr] at hst
    have e1 : renderPath true st.reverse = 47 :: joinWith b!"/" st.reverse := by simp [renderPath]
    rw [e1]
    have e2 : isRooted (47 :: joinWith b!"/" st.reverse) = true := by simp [isRooted]
    rw [e2]
    have e3 : cleanComps (47 :: joinWith b!"/" st.reverse) = st := by
      unfold cleanComps
      rw [e2]
      simp only [splitOn]
      cases st with
      | nil => decide
      | cons t st =>
        rw [splitOn_joinWith 47 _ (by simp) (fun p hp => (hinv p (List.mem_reverse.1 hp)).2.2)]
        simp only [if_true, List.foldl_cons, foldl_cleanStep_skip]
        exact cleanStack_rebuild hst
    rw [e3, e1]
  | false =>
    rw [hr] at hst
    cases st with
    | nil => decide
    | cons t st =>
      have e1 : renderPath false (t :: st).reverse = joinWith b!"/" (t :: st).reverse := by simp [renderPath]
      rw [e1]
      have e2 : isRooted (joinWith b!"/" (t :: st).reverse) = false := by
        simp only [isRooted, decide_eq_false_iff_not]
        exact joinWith_head (fun x hx => ⟨(hinv x (List.mem_reverse.1 hx)).1, (hinv x (List.mem_reverse.1 hx)).2.2⟩)
      rw [e2]
      have e3 : cleanComps (joinWith b!"/" (t :: st).reverse) = t :: st := by
        unfold cleanComps
        rw [e2, splitOn_joinWith 47 _ (by simp) (fun p hp => (hinv p (List.mem_reverse.1 hp)).2.2)]
        exact cleanStack_rebuild hst
      rw [e3, e1]

theorem cleanPath_ne_nil (s : Bytes) : cleanPath s ≠ [] := by
  unfold cleanPath renderPath
  split
  · simp
  · split
    · decide
    · rename_i h
      intro e
      rcases joinWith_eq_nil (by decide) e with e | e
      · exact h e
      · have := (cleanComps_inv s [] (by rw [← List.mem_reverse, e]; simp)).1
        exact this rfl

theorem childPath_inj {d a b : Bytes} (h : childPath d a = childPath d b) : a = b := by
  unfold childPath at h
  split at h
  · simpa using h
  · split at h
    · exact h
    · simpa using h

end Verif
