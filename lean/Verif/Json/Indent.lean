/- `json.MarshalIndent(v, "", "    ")`: the form in which results and errors are printed. -/
import Verif.Json.RoundTrip

namespace Verif

/-- A new line at indentation `d`. Go standard library (`json.MarshalIndent`), used by
pkg/types/types.go:318-325 `prettyPrint` and pkg/types/100/types.go:260-267 `Result.PrintTo`. -/
def newline (d : Nat) : Bytes := 10 :: List.replicate (4 * d) 32

mutual
/-- `json.MarshalIndent` with four spaces (encoding/json/indent.go, `appendIndent`): pkg/types/types.go:318-325 `prettyPrint`,
pkg/types/100/types.go:260-267 `Result.PrintTo`. -/
def Json.printIndent (d : Nat) : Json → Bytes
  | .null => b!"null"
  | .bool true => b!"true"
  | .bool false => b!"false"
  | .num l => l
  | .str s => printStr s
  | .arr l => 0x5b :: Json.indentArr d l
  | .obj l => 0x7b :: Json.indentObj d l
/-- Go standard library (`json.MarshalIndent`), used by pkg/types/types.go:318-325 `prettyPrint` and
pkg/types/100/types.go:260-267 `Result.PrintTo`. -/
def Json.indentArr (d : Nat) : List Json → Bytes
  | [] => [0x5d]
  | j :: l => newline (d + 1) ++ (Json.printIndent (d + 1) j ++ Json.indentTail d l)
/-- Go standard library (`json.MarshalIndent`), used by pkg/types/types.go:318-325 `prettyPrint` and
pkg/types/100/types.go:260-267 `Result.PrintTo`. -/
def Json.indentTail (d : Nat) : List Json → Bytes
  | [] => newline d ++ [0x5d]
  | j :: l => 0x2c :: (newline (d + 1) ++ (Json.printIndent (d + 1) j ++ Json.indentTail d l))
/-- Go standard library (`json.MarshalIndent`), used by pkg/types/types.go:318-325 `prettyPrint` and
pkg/types/100/types.go:260-267 `Result.PrintTo`. -/
def Json.indentObj (d : Nat) : List (Bytes × Json) → Bytes
  | [] => [0x7d]
  | m :: l => newline (d + 1) ++ (printStr m.1 ++ 0x3a :: 0x20 :: (Json.printIndent (d + 1) m.2 ++ Json.indentMTail d l))
/-- Go standard library (`json.MarshalIndent`), used by pkg/types/types.go:318-325 `prettyPrint` and
pkg/types/100/types.go:260-267 `Result.PrintTo`. -/
def Json.indentMTail (d : Nat) : List (Bytes × Json) → Bytes
  | [] => newline d ++ [0x7d]
  | m :: l => 0x2c :: (newline (d + 1) ++ (printStr m.1 ++ 0x3a :: 0x20 :: (Json.printIndent (d + 1) m.2 ++ Json.indentMTail d l)))
end

example : Json.printIndent 0 (.obj [(b!"a", .arr [.num b!"1", .obj []]), (b!"b", .arr [])]) =
    b!"{\n    \"a\": [\n        1,\n        {}\n    ],\n    \"b\": []\n}" := by decide +kernel

theorem skipWs_newline (d : Nat) (s : Bytes) : skipWs (newline d ++ s) = skipWs s := by
  have : ∀ n, skipWs (List.replicate n 32 ++ s) = skipWs s := by
    intro n
    induction n with
    | zero => rfl
    | succ n ih => rw [List.replicate_succ, List.cons_append]; unfold skipWs at ih ⊢; rw [List.dropWhile_cons]; simpa [isWs] using ih
  rw [newline, List.cons_append]
  unfold skipWs at this ⊢
  rw [List.dropWhile_cons]
  simpa [isWs] using this (4 * d)

theorem skipWs_space (s : Bytes) : skipWs (0x20 :: s) = skipWs s := by
  unfold skipWs; rw [List.dropWhile_cons]; simp [isWs]

theorem parseVal_ws {s t : Bytes} (h : skipWs s = skipWs t) (n : Nat) : parseVal n s = parseVal n t := by
  cases n with
  | zero => simp [parseVal]
  | succ n => simp only [parseVal, h]

theorem newline_length (d : Nat) : 1 ≤ (newline d).length := by simp [newline]

theorem newline_delim (d : Nat) (r : Bytes) : NumDelim (newline d ++ r) := by
  simp only [newline, List.cons_append]; exact numDelim_cons (by decide)

theorem indentTail_delim (d : Nat) (l : List Json) (r : Bytes) : NumDelim (Json.indentTail d l ++ r) := by
  cases l <;> simp only [Json.indentTail, List.cons_append, List.append_assoc]
  · exact newline_delim _ _
  · exact numDelim_cons (by decide)

theorem indentMTail_delim (d : Nat) (l : List (Bytes × Json)) (r : Bytes) : NumDelim (Json.indentMTail d l ++ r) := by
  cases l <;> simp only [Json.indentMTail, List.cons_append, List.append_assoc]
  · exact newline_delim _ _
  · exact numDelim_cons (by decide)

theorem printIndent_head {j : Json} (h : j.WF) (d : Nat) :
    ∃ c t, j.printIndent d = c :: t ∧ isWs c = false ∧ c ≠ 0x5d ∧ c ≠ 0x7d := by
  cases j with
  | null => exact ⟨_, _, rfl, by decide⟩
  | bool b => cases b <;> exact ⟨_, _, rfl, by decide⟩
  | num l =>
    simp only [Json.WF] at h
    obtain ⟨c, t, e, hc⟩ := numValid_head h
    have := isDigit_not hc
    exact ⟨c, t, by simp [Json.printIndent, e], this.1, this.2.2.2.2.2.2.2.1, this.2.2.2.2.2.2.2.2⟩
  | str s => exact ⟨0x22, _, rfl, by decide⟩
  | arr l => exact ⟨0x5b, _, rfl, by decide⟩
  | obj l => exact ⟨0x7b, _, rfl, by decide⟩

theorem indentTail_length (d : Nat) (l : List Json) : 1 ≤ (Json.indentTail d l).length := by
  cases l <;> simp [Json.indentTail]
theorem indentMTail_length (d : Nat) (l : List (Bytes × Json)) : 1 ≤ (Json.indentMTail d l).length := by
  cases l <;> simp [Json.indentMTail]

mutual
theorem parseVal_printIndent (j : Json) (h : j.WF) (d n : Nat) (r : Bytes) (hn : (j.printIndent d).length ≤ n)
    (hr : NumDelim r) : parseVal n (j.printIndent d ++ r) = some (j, r) := by
  cases n with
  | zero => obtain ⟨c, t, e, _⟩ := printIndent_head h d; rw [e] at hn; simp at hn
  | succ n =>
  cases j with
  | null => simp [Json.printIndent, parseVal, skipWs, isWs, stripWord, hasPrefix]
  | bool b => cases b <;> simp [Json.printIndent, parseVal, skipWs, isWs, stripWord, hasPrefix]
  | num l =>
    have := parseVal_print (.num l) h (n + 1) r hn hr
    exact this
  | str s =>
    have := parseVal_print (.str s) h (n + 1) r hn hr
    exact this
  | arr l =>
    simp only [Json.WF] at h
    simp only [Json.printIndent, List.cons_append, parseVal]
    rw [skipWs_cons (by decide)]
    simp only [show (0x5b : UInt8) ≠ 0x22 by decide, show (0x5b : UInt8) ≠ 0x7b by decide, if_false, if_true]
    cases l with
    | nil => simp only [Json.indentArr, List.cons_append, List.nil_append]; rw [skipWs_cons (by decide)]; simp
    | cons j l =>
      simp only [Json.WFList] at h
      simp only [Json.printIndent, Json.indentArr, List.length_cons, List.length_append] at hn
      obtain ⟨c, t, e, hw, hb, _⟩ := printIndent_head h.1 (d + 1)
      have hnl := newline_length (d + 1)
      have h1 := parseVal_printIndent j h.1 (d + 1) n (Json.indentTail d l ++ r) (by omega) (indentTail_delim d l r)
      have h2 := parseTail_printIndent l h.2 d n r (by omega)
      simp only [Json.indentArr, List.append_assoc]
      rw [skipWs_newline]
      rw [e] at h1 ⊢
      simp only [List.cons_append] at h1 ⊢
      rw [skipWs_cons hw]
      simp only [hb, if_false]
      rw [h1]
      simp [h2]
  | obj l =>
    simp only [Json.WF] at h
    simp only [Json.printIndent, List.cons_append, parseVal]
    rw [skipWs_cons (by decide)]
    simp only [show (0x7b : UInt8) ≠ 0x22 by decide, if_false, if_true]
    cases l with
    | nil => simp only [Json.indentObj, List.cons_append, List.nil_append]; rw [skipWs_cons (by decide)]; simp
    | cons m l =>
      obtain ⟨k, j⟩ := m
      simp only [Json.WFMembers] at h
      simp only [Json.printIndent, Json.indentObj, List.length_cons, List.length_append] at hn
      have hk := printStr_length k
      have hmt := indentMTail_length d l
      have hnl := newline_length (d + 1)
      cases n with
      | zero => omega
      | succ n =>
      have h1 := parseVal_printIndent j h.1.2 (d + 1) n (Json.indentMTail d l ++ r) (by omega) (indentMTail_delim d l r)
      have h2 := parseMTail_printIndent l h.2 d (n + 1) r (by omega)
      simp only [Json.indentObj, List.append_assoc, List.cons_append]
      rw [skipWs_newline, printStr_append, skipWs_cons (by decide)]
      simp only [show (0x22 : UInt8) ≠ 0x7d by decide, if_false]
      simp only [parseMember]
      rw [skipWs_cons (by decide)]
      simp only [if_true, parseStr_escape h.1.1]
      rw [skipWs_cons (by decide)]
      have h3 := (parseVal_ws (skipWs_space _) n).trans h1
      simp [h3, h2]
theorem parseTail_printIndent (l : List Json) (h : Json.WFList l) (d n : Nat) (r : Bytes)
    (hn : (Json.indentTail d l).length ≤ n) : parseTail n (Json.indentTail d l ++ r) = some (l, r) := by
  cases n with
  | zero => have := indentTail_length d l; omega
  | succ n =>
  cases l with
  | nil => simp only [Json.indentTail, parseTail, List.append_assoc]; rw [skipWs_newline, List.cons_append, skipWs_cons (by decide)]; simp
  | cons j l =>
    simp only [Json.WFList] at h
    simp only [Json.indentTail, List.length_cons, List.length_append] at hn
    have hmt := indentTail_length d l
    have hnl := newline_length (d + 1)
    have h1 := parseVal_printIndent j h.1 (d + 1) n (Json.indentTail d l ++ r) (by omega) (indentTail_delim d l r)
    have h2 := parseTail_printIndent l h.2 d n r (by omega)
    simp only [Json.indentTail, List.cons_append, List.append_assoc, parseTail]
    rw [skipWs_cons (by decide)]
    have h3 := (parseVal_ws (skipWs_newline (d + 1) _) n).trans h1
    simp [h3, h2]
theorem parseMTail_printIndent (l : List (Bytes × Json)) (h : Json.WFMembers l) (d n : Nat) (r : Bytes)
    (hn : (Json.indentMTail d l).length ≤ n) : parseMTail n (Json.indentMTail d l ++ r) = some (l, r) := by
  cases n with
  | zero => have := indentMTail_length d l; omega
  | succ n =>
  cases l with
  | nil => simp only [Json.indentMTail, parseMTail, List.append_assoc]; rw [skipWs_newline, List.cons_append, skipWs_cons (by decide)]; simp
  | cons m l =>
    obtain ⟨k, j⟩ := m
    simp only [Json.WFMembers] at h
    simp only [Json.indentMTail, List.length_cons, List.length_append] at hn
    have hk := printStr_length k
    have hmt := indentMTail_length d l
    have hnl := newline_length (d + 1)
    cases n with
    | zero => omega
    | succ n =>
    have h1 := parseVal_printIndent j h.1.2 (d + 1) n (Json.indentMTail d l ++ r) (by omega) (indentMTail_delim d l r)
    have h2 := parseMTail_printIndent l h.2 d (n + 1) r (by omega)
    simp only [Json.indentMTail, List.cons_append, List.append_assoc, parseMTail]
    rw [skipWs_cons (by decide)]
    simp only [show (0x2c : UInt8) ≠ 0x7d by decide, if_false, if_true]
    simp only [parseMember]
    rw [skipWs_newline, printStr_append, skipWs_cons (by decide)]
    simp only [if_true, parseStr_escape h.1.1]
    rw [skipWs_cons (by decide)]
    have h3 := (parseVal_ws (skipWs_space _) n).trans h1
    simp only [parseMTail] at h2
    simp [h3, h2]
end

/-- The indented form reads back. -/
theorem Json.parse_printIndent (j : Json) (h : j.WF) (d : Nat) : Json.parse (j.printIndent d) = some j := by
  have := parseVal_printIndent j h d ((j.printIndent d).length + 1) [] (by omega) (by intro c hc; simp at hc)
  simp only [List.append_nil] at this
  simp [Json.parse, this, skipWs]

end Verif
