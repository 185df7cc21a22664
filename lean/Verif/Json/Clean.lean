/- Documents whose strings are arbitrary Go strings: what is read back after printing. -/
import Verif.Json.Any
import Verif.Json.DecEq

namespace Verif
set_option linter.unusedSimpArgs false

mutual
/-- Every number literal is a valid one. Proof device: models no code. (Predicate or function on
documents used in statements.) -/
def Json.NumsOK : Json → Prop
  | .num l => numValid l = true
  | .arr l => Json.NumsOKList l
  | .obj ms => Json.NumsOKMembers ms
  | _ => True
/-- Proof device: models no code. (Predicate or function on documents used in statements.) -/
def Json.NumsOKList : List Json → Prop
  | [] => True
  | j :: l => j.NumsOK ∧ Json.NumsOKList l
/-- Proof device: models no code. (Predicate or function on documents used in statements.) -/
def Json.NumsOKMembers : List (Bytes × Json) → Prop
  | [] => True
  | m :: l => m.2.NumsOK ∧ Json.NumsOKMembers l
end

mutual
/-- The document with each invalid UTF-8 byte in strings and keys replaced by U+FFFD (what JSON can
carry). Proof device: models no code. (Predicate or function on documents used in statements.) -/
def Json.clean : Json → Json
  | .null => .null
  | .bool b => .bool b
  | .num l => .num l
  | .str s => .str (sanitize s)
  | .arr l => .arr (Json.cleanList l)
  | .obj ms => .obj (Json.cleanMembers ms)
/-- Proof device: models no code. (Predicate or function on documents used in statements.) -/
def Json.cleanList : List Json → List Json
  | [] => []
  | j :: l => j.clean :: Json.cleanList l
/-- Proof device: models no code. (Predicate or function on documents used in statements.) -/
def Json.cleanMembers : List (Bytes × Json) → List (Bytes × Json)
  | [] => []
  | m :: l => (sanitize m.1, m.2.clean) :: Json.cleanMembers l
end

theorem printStr_sanitize (s : Bytes) : printStr (sanitize s) = printStr s := by simp [printStr]

mutual
theorem Json.print_clean (j : Json) : j.clean.print = j.print := by
  cases j with
  | null => rfl
  | bool b => rfl
  | num l => rfl
  | str s => simp only [Json.clean, Json.print, printStr_sanitize]
  | arr l => simp only [Json.clean, Json.print]; rw [Json.printArr_clean l]
  | obj ms => simp only [Json.clean, Json.print]; rw [Json.printObj_clean ms]
theorem Json.printArr_clean (l : List Json) : Json.printArr (Json.cleanList l) = Json.printArr l := by
  cases l with
  | nil => rfl
  | cons j l => simp only [Json.cleanList, Json.printArr]; rw [Json.print_clean j, Json.printTail_clean l]
theorem Json.printTail_clean (l : List Json) : Json.printTail (Json.cleanList l) = Json.printTail l := by
  cases l with
  | nil => rfl
  | cons j l => simp only [Json.cleanList, Json.printTail]; rw [Json.print_clean j, Json.printTail_clean l]
theorem Json.printObj_clean (l : List (Bytes × Json)) : Json.printObj (Json.cleanMembers l) = Json.printObj l := by
  cases l with
  | nil => rfl
  | cons m l =>
    obtain ⟨k, j⟩ := m
    simp only [Json.cleanMembers, Json.printObj, printStr_sanitize]
    rw [Json.print_clean j, Json.printMTail_clean l]
theorem Json.printMTail_clean (l : List (Bytes × Json)) : Json.printMTail (Json.cleanMembers l) = Json.printMTail l := by
  cases l with
  | nil => rfl
  | cons m l =>
    obtain ⟨k, j⟩ := m
    simp only [Json.cleanMembers, Json.printMTail, printStr_sanitize]
    rw [Json.print_clean j, Json.printMTail_clean l]
end

mutual
theorem Json.clean_WF (j : Json) (h : j.NumsOK) : j.clean.WF := by
  cases j with
  | null => trivial
  | bool b => trivial
  | num l => simpa only [Json.clean, Json.WF, Json.NumsOK] using h
  | str s => simp only [Json.clean, Json.WF, isUtf8_sanitize]
  | arr l => simp only [Json.clean, Json.WF]; exact Json.cleanList_WF l (by simpa only [Json.NumsOK] using h)
  | obj ms => simp only [Json.clean, Json.WF]; exact Json.cleanMembers_WF ms (by simpa only [Json.NumsOK] using h)
theorem Json.cleanList_WF (l : List Json) (h : Json.NumsOKList l) : Json.WFList (Json.cleanList l) := by
  cases l with
  | nil => trivial
  | cons j l =>
    simp only [Json.NumsOKList] at h
    simp only [Json.cleanList, Json.WFList]
    exact ⟨Json.clean_WF j h.1, Json.cleanList_WF l h.2⟩
theorem Json.cleanMembers_WF (l : List (Bytes × Json)) (h : Json.NumsOKMembers l) : Json.WFMembers (Json.cleanMembers l) := by
  cases l with
  | nil => trivial
  | cons m l =>
    obtain ⟨k, j⟩ := m
    simp only [Json.NumsOKMembers] at h
    simp only [Json.cleanMembers, Json.WFMembers]
    exact ⟨⟨isUtf8_sanitize k, Json.clean_WF j h.1⟩, Json.cleanMembers_WF l h.2⟩
end

/-- Printing and reading back any document. -/
theorem Json.parse_print_clean (j : Json) (h : j.NumsOK) : Json.parse j.print = some j.clean := by
  rw [← Json.print_clean]; exact Json.parse_print _ (Json.clean_WF j h)

mutual
theorem Json.clean_of_WF (j : Json) (h : j.WF) : j.clean = j := by
  cases j with
  | null => rfl
  | bool b => rfl
  | num l => rfl
  | str s => simp only [Json.clean]; rw [sanitize_of_isUtf8 (by simpa only [Json.WF] using h)]
  | arr l => simp only [Json.clean]; rw [Json.cleanList_of_WF l (by simpa only [Json.WF] using h)]
  | obj ms => simp only [Json.clean]; rw [Json.cleanMembers_of_WF ms (by simpa only [Json.WF] using h)]
theorem Json.cleanList_of_WF (l : List Json) (h : Json.WFList l) : Json.cleanList l = l := by
  cases l with
  | nil => rfl
  | cons j l =>
    simp only [Json.WFList] at h
    simp only [Json.cleanList]; rw [Json.clean_of_WF j h.1, Json.cleanList_of_WF l h.2]
theorem Json.cleanMembers_of_WF (l : List (Bytes × Json)) (h : Json.WFMembers l) : Json.cleanMembers l = l := by
  cases l with
  | nil => rfl
  | cons m l =>
    obtain ⟨k, j⟩ := m
    simp only [Json.WFMembers] at h
    simp only [Json.cleanMembers]
    rw [sanitize_of_isUtf8 h.1.1, Json.clean_of_WF j h.1.2, Json.cleanMembers_of_WF l h.2]
end

mutual
theorem Json.NumsOK_of_WF (j : Json) (h : j.WF) : j.NumsOK := by
  cases j with
  | null => trivial
  | bool b => trivial
  | num l => simpa only [Json.WF, Json.NumsOK] using h
  | str s => trivial
  | arr l => exact Json.NumsOKList_of_WF l (by simpa only [Json.WF] using h)
  | obj ms => exact Json.NumsOKMembers_of_WF ms (by simpa only [Json.WF] using h)
theorem Json.NumsOKList_of_WF (l : List Json) (h : Json.WFList l) : Json.NumsOKList l := by
  cases l with
  | nil => trivial
  | cons j l =>
    simp only [Json.WFList] at h
    exact ⟨Json.NumsOK_of_WF j h.1, Json.NumsOKList_of_WF l h.2⟩
theorem Json.NumsOKMembers_of_WF (l : List (Bytes × Json)) (h : Json.WFMembers l) : Json.NumsOKMembers l := by
  cases l with
  | nil => trivial
  | cons m l =>
    simp only [Json.WFMembers] at h
    exact ⟨Json.NumsOK_of_WF m.2 h.1.2, Json.NumsOKMembers_of_WF l h.2⟩
end

theorem NumsOKMembers_iff {l : List (Bytes × Json)} : Json.NumsOKMembers l ↔ ∀ m ∈ l, m.2.NumsOK := by
  induction l with
  | nil => simp [Json.NumsOKMembers]
  | cons m l ih => simp [Json.NumsOKMembers, ih]

theorem NumsOKList_iff {l : List Json} : Json.NumsOKList l ↔ ∀ j ∈ l, j.NumsOK := by
  induction l with
  | nil => simp [Json.NumsOKList]
  | cons m l ih => simp [Json.NumsOKList, ih]

theorem cleanMembers_eq (l : List (Bytes × Json)) : Json.cleanMembers l = l.map fun m => (sanitize m.1, m.2.clean) := by
  induction l with
  | nil => rfl
  | cons m l ih => simp [Json.cleanMembers, ih]

theorem cleanList_eq (l : List Json) : Json.cleanList l = l.map Json.clean := by
  induction l with
  | nil => rfl
  | cons m l ih => simp [Json.cleanList, ih]

mutual
/-- Decoding into `interface{}` leaves valid numbers only. -/
theorem Json.toAny_NumsOK (j j' : Json) (h : j.toAny = some j') : j'.NumsOK := by
  cases j with
  | null => simp [Json.toAny] at h; subst h; trivial
  | bool b => simp [Json.toAny] at h; subst h; trivial
  | str s => simp [Json.toAny] at h; subst h; trivial
  | num l =>
    simp only [Json.toAny, Option.map_eq_some_iff] at h
    obtain ⟨l', hl, rfl⟩ := h
    simp only [Json.NumsOK, normNum_valid hl]
  | arr l =>
    simp only [Json.toAny, Option.map_eq_some_iff] at h
    obtain ⟨l', hl, rfl⟩ := h
    simp only [Json.NumsOK]
    exact Json.toAnyList_NumsOK l l' hl
  | obj l =>
    simp only [Json.toAny, Option.map_eq_some_iff] at h
    obtain ⟨l', hl, rfl⟩ := h
    simp only [Json.NumsOK]
    have := Json.toAnyMembers_NumsOK l l' hl
    rw [NumsOKMembers_iff] at this ⊢
    exact fun m hm => this m (ofList_mem m hm)
theorem Json.toAnyList_NumsOK (l l' : List Json) (h : Json.toAnyList l = some l') : Json.NumsOKList l' := by
  cases l with
  | nil => simp [Json.toAnyList] at h; subst h; trivial
  | cons j l =>
    simp only [Json.toAnyList] at h
    split at h
    · rename_i j' l'' hj hl
      simp only [Option.some.injEq] at h; subst h
      exact ⟨Json.toAny_NumsOK j j' hj, Json.toAnyList_NumsOK l l'' hl⟩
    · cases h
theorem Json.toAnyMembers_NumsOK (l l' : List (Bytes × Json)) (h : Json.toAnyMembers l = some l') : Json.NumsOKMembers l' := by
  cases l with
  | nil => simp [Json.toAnyMembers] at h; subst h; trivial
  | cons m l =>
    obtain ⟨k, j⟩ := m
    simp only [Json.toAnyMembers] at h
    split at h
    · rename_i j' l'' hj hl
      simp only [Option.some.injEq] at h; subst h
      exact ⟨Json.toAny_NumsOK j j' hj, Json.toAnyMembers_NumsOK l l'' hl⟩
    · cases h
end

example : (Json.obj [(b!"a", .str [0x61, 0xff]), (b!"n", .num b!"1e3")]).NumsOK ∧
    (Json.str [0x61, 0xff]).clean = .str [0x61, 0xEF, 0xBF, 0xBD] := by
  refine ⟨⟨trivial, ?_, trivial⟩, by decide⟩
  simp only [Json.NumsOK]; decide

end Verif
