/- How plugins print results and errors. -/
import Verif.Json.Indent
import Verif.Json.Clean
import Verif.Types.ResultJson
import Verif.Base.Err

namespace Verif

/-- pkg/types/020/types.go:127-134 `Result.PrintTo`, pkg/types/040/types.go:211-218 `Result.PrintTo`,
pkg/types/100/types.go:260-267 `Result.PrintTo`: what is written, if the result can be marshalled. -/
def Result.printTo (r : Result) : Option Bytes := r.json.map (Json.printIndent 0)

/-- pkg/types/types.go:144-150 `PrintResult`: what is written to stdout. (An error of the write itself is not modelled.) -/
def printResult (r : Result) (version : Bytes) : Out Bytes := do
  let r' ← r.getAsVersion version
  Out.ofOption b!"json: error calling MarshalText" r'.printTo

/-- `json.Marshal` of a pkg/types/types.go:247-251 `Error`. -/
def CniErr.json (e : CniErr) : Json :=
  .obj ([(b!"code", .num (natDigits e.code)), (b!"msg", .str e.msg)] ++
    if e.details = [] then [] else [(b!"details", .str e.details)])

/-- pkg/types/types.go:269-271 `Error.Print`: what is written to stdout. -/
def CniErr.printed (e : CniErr) : Bytes := e.json.printIndent 0

example : ({ code := 7, msg := b!"bad <x>", details := b!"d" } : CniErr).printed =
    b!"{\n    \"code\": 7,\n    \"msg\": \"bad \\u003cx\\u003e\",\n    \"details\": \"d\"\n}" := by decide +kernel

mutual
theorem Json.printIndent_clean (d : Nat) (j : Json) : j.clean.printIndent d = j.printIndent d := by
  cases j with
  | null => rfl
  | bool b => cases b <;> rfl
  | num l => rfl
  | str s => simp only [Json.clean, Json.printIndent, printStr_sanitize]
  | arr l => simp only [Json.clean, Json.printIndent]; rw [Json.indentArr_clean d l]
  | obj ms => simp only [Json.clean, Json.printIndent]; rw [Json.indentObj_clean d ms]
theorem Json.indentArr_clean (d : Nat) (l : List Json) : Json.indentArr d (Json.cleanList l) = Json.indentArr d l := by
  cases l with
  | nil => rfl
  | cons j l => simp only [Json.cleanList, Json.indentArr]; rw [Json.printIndent_clean (d + 1) j, Json.indentTail_clean d l]
theorem Json.indentTail_clean (d : Nat) (l : List Json) : Json.indentTail d (Json.cleanList l) = Json.indentTail d l := by
  cases l with
  | nil => rfl
  | cons j l => simp only [Json.cleanList, Json.indentTail]; rw [Json.printIndent_clean (d + 1) j, Json.indentTail_clean d l]
theorem Json.indentObj_clean (d : Nat) (l : List (Bytes × Json)) : Json.indentObj d (Json.cleanMembers l) = Json.indentObj d l := by
  cases l with
  | nil => rfl
  | cons m l =>
    obtain ⟨k, j⟩ := m
    simp only [Json.cleanMembers, Json.indentObj, printStr_sanitize]
    rw [Json.printIndent_clean (d + 1) j, Json.indentMTail_clean d l]
theorem Json.indentMTail_clean (d : Nat) (l : List (Bytes × Json)) : Json.indentMTail d (Json.cleanMembers l) = Json.indentMTail d l := by
  cases l with
  | nil => rfl
  | cons m l =>
    obtain ⟨k, j⟩ := m
    simp only [Json.cleanMembers, Json.indentMTail, printStr_sanitize]
    rw [Json.printIndent_clean (d + 1) j, Json.indentMTail_clean d l]
end

/-- Printing with indentation and reading back any document. -/
theorem Json.parse_printIndent_clean (j : Json) (h : j.NumsOK) (d : Nat) : Json.parse (j.printIndent d) = some j.clean := by
  rw [← Json.printIndent_clean]; exact Json.parse_printIndent _ (Json.clean_WF j h) d

end Verif
