/-
Struct decoding and encoding of encoding/json: field lookup by name (exact, else case-insensitive),
`null` handling, integers, strings, string lists, base64 byte slices, text-unmarshalled addresses.
Standard-library behaviour; the struct definitions themselves are modelled in the files of the
packages that define them.
-/
import Verif.Json.Any
import Verif.Base.Base64
import Verif.Net.IPLemmas

namespace Verif
set_option linter.unusedSimpArgs false

/-- encoding/json `foldName` restricted to what can match an ASCII field name: ASCII case folding,
plus U+212A (Kelvin sign) folding to `k` and U+017F (long s) to `s`. Go standard library
(encoding/json), used wherever the code decodes into or encodes from a struct, e.g.
pkg/types/types.go:64-78 `PluginConf` and pkg/types/100/types.go:90-96 `Result`. -/
def foldKey : Bytes → Bytes
  | 0xE2 :: 0x84 :: 0xAA :: r => 107 :: foldKey r
  | 0xC5 :: 0xBF :: r => 115 :: foldKey r
  | c :: r => lowerByte c :: foldKey r
  | [] => []

/-- The struct field an object key is stored into: exact name first, else the first field equal under
case folding (encoding/json/decode.go, `object`). -/
def fieldMatch (names : List Bytes) (k : Bytes) : Option Bytes :=
  if k ∈ names then some k else names.find? fun n => foldKey n = foldKey k

/-- All values stored into field `f`, in document order. Go standard library (encoding/json), used
wherever the code decodes into or encodes from a struct, e.g. pkg/types/types.go:64-78 `PluginConf`
and pkg/types/100/types.go:90-96 `Result`. -/
def getField (names : List Bytes) (f : Bytes) (ms : List (Bytes × Json)) : List Json :=
  ms.filterMap fun m => if fieldMatch names m.1 = some f then some m.2 else none

theorem getField_append (names : List Bytes) (f : Bytes) (a b : List (Bytes × Json)) :
    getField names f (a ++ b) = getField names f a ++ getField names f b := by
  simp [getField]

theorem getField_nil (names : List Bytes) (f : Bytes) : getField names f [] = [] := rfl

theorem getField_cons_eq {names : List Bytes} {f k : Bytes} {v : Json} {ms : List (Bytes × Json)}
    (h : fieldMatch names k = some f) : getField names f ((k, v) :: ms) = v :: getField names f ms := by
  simp [getField, h]

theorem getField_cons_ne {names : List Bytes} {f k : Bytes} {v : Json} {ms : List (Bytes × Json)}
    (h : fieldMatch names k ≠ some f) : getField names f ((k, v) :: ms) = getField names f ms := by
  simp [getField, h]

theorem getField_cons (names : List Bytes) (f k : Bytes) (v : Json) (ms : List (Bytes × Json)) :
    getField names f ((k, v) :: ms)
      = (if fieldMatch names k = some f then [v] else []) ++ getField names f ms := by
  by_cases h : fieldMatch names k = some f
  · simp [getField_cons_eq h, h]
  · simp [getField_cons_ne h, h]

/-- An `omitempty` member. Go standard library (encoding/json), used wherever the code decodes into
or encodes from a struct, e.g. pkg/types/types.go:64-78 `PluginConf` and
pkg/types/100/types.go:90-96 `Result`. -/
def jopt (c : Bool) (k : Bytes) (v : Json) : List (Bytes × Json) := if c then [(k, v)] else []

theorem getField_jopt (names : List Bytes) (f : Bytes) (c : Bool) (k : Bytes) (v : Json) :
    getField names f (jopt c k v) = if fieldMatch names k = some f then (if c then [v] else []) else [] := by
  cases c <;> by_cases h : fieldMatch names k = some f <;> simp [jopt, getField, h]

/-- Decode all values stored into a field, one after the other (later ones overwrite). Go standard
library (encoding/json), used wherever the code decodes into or encodes from a struct, e.g.
pkg/types/types.go:64-78 `PluginConf` and pkg/types/100/types.go:90-96 `Result`. -/
def decAll {α : Type} (dec : α → Json → Option α) (init : α) (vals : List Json) : Option α :=
  vals.foldlM dec init

theorem decAll_nil {α : Type} (dec : α → Json → Option α) (init : α) : decAll dec init [] = some init := rfl
theorem decAll_one {α : Type} (dec : α → Json → Option α) (init : α) (v : Json) :
    decAll dec init [v] = dec init v := by
  simp only [decAll, List.foldlM]
  cases dec init v <;> rfl
theorem decAll_cons {α : Type} (dec : α → Json → Option α) (init : α) (v : Json) (vs : List Json) :
    decAll dec init (v :: vs) = (dec init v).bind fun a => decAll dec a vs := rfl

/-! ### scalars -/

/-- Into a `string` field. Go standard library (encoding/json), used wherever the code decodes into
or encodes from a struct, e.g. pkg/types/types.go:64-78 `PluginConf` and
pkg/types/100/types.go:90-96 `Result`. -/
def decStr (cur : Bytes) : Json → Option Bytes
  | .null => some cur
  | .str s => some s
  | _ => none

/-- Into a `bool` field. Go standard library (encoding/json), used wherever the code decodes into or
encodes from a struct, e.g. pkg/types/types.go:64-78 `PluginConf` and
pkg/types/100/types.go:90-96 `Result`. -/
def decBool (cur : Bool) : Json → Option Bool
  | .null => some cur
  | .bool b => some b
  | _ => none

/-- `strconv.ParseInt(lit, 10, 64)` on a JSON number literal. Go standard library (encoding/json),
used wherever the code decodes into or encodes from a struct, e.g.
pkg/types/types.go:64-78 `PluginConf` and pkg/types/100/types.go:90-96 `Result`. -/
def parseInt64 (lit : Bytes) : Option Int :=
  let (neg, ds) := match lit with
    | 45 :: r => (true, r)
    | _ => (false, lit)
  if ds = [] ∨ ds.any (fun c => !isDigit c) then none
  else
    let v : Int := if neg then -(digitsVal ds : Int) else digitsVal ds
    if -9223372036854775808 ≤ v ∧ v ≤ 9223372036854775807 then some v else none

/-- Into an `int` field (64 bit). Go standard library (encoding/json), used wherever the code
decodes into or encodes from a struct, e.g. pkg/types/types.go:64-78 `PluginConf` and
pkg/types/100/types.go:90-96 `Result`. -/
def decInt (cur : Int) : Json → Option Int
  | .null => some cur
  | .num l => parseInt64 l
  | _ => none

/-- Into a `*int` field. Go standard library (encoding/json), used wherever the code decodes into or
encodes from a struct, e.g. pkg/types/types.go:64-78 `PluginConf` and
pkg/types/100/types.go:90-96 `Result`. -/
def decOptInt (_cur : Option Int) : Json → Option (Option Int)
  | .null => some none
  | .num l => (parseInt64 l).map some
  | _ => none

/-- `int` on a 64-bit platform. Go standard library (encoding/json), used wherever the code decodes
into or encodes from a struct, e.g. pkg/types/types.go:64-78 `PluginConf` and
pkg/types/100/types.go:90-96 `Result`. -/
def isInt64 (n : Int) : Prop := -9223372036854775808 ≤ n ∧ n ≤ 9223372036854775807

/-- Go standard library (encoding/json), used wherever the code decodes into or encodes from a
struct, e.g. pkg/types/types.go:64-78 `PluginConf` and pkg/types/100/types.go:90-96 `Result`. -/
def jInt (n : Int) : Json := .num (itoa n)

theorem any_not_digit_natDigits (n : Nat) : (natDigits n).any (fun c => !isDigit c) = false := by
  rw [List.any_eq_false]; intro c hc; simp [natDigits_digits _ c hc]

theorem parseInt64_itoa {n : Int} (h : isInt64 n) : parseInt64 (itoa n) = some n := by
  cases n with
  | ofNat k =>
    have e : ∃ c t, natDigits k = c :: t ∧ c ≠ 45 := by
      cases hh : natDigits k with
      | nil => exact absurd hh (natDigits_ne_nil k)
      | cons c t =>
        refine ⟨c, t, rfl, ?_⟩
        have := natDigits_digits k c (by rw [hh]; simp)
        rintro rfl; simp [isDigit] at this
    obtain ⟨c, t, e, hc⟩ := e
    have hm : (match itoa (Int.ofNat k) with | 45 :: r => (true, r) | _ => (false, itoa (Int.ofNat k)))
        = (false, natDigits k) := by
      simp only [itoa]; rw [e]; split
      · rename_i h; simp at h; exact absurd h.1 hc
      · rfl
    simp only [parseInt64, hm, natDigits_ne_nil, any_not_digit_natDigits, Bool.false_eq_true, or_self,
      if_false, digitsVal_natDigits]
    exact if_pos h
  | negSucc k =>
    simp only [parseInt64, itoa, natDigits_ne_nil, any_not_digit_natDigits, Bool.false_eq_true, or_self,
      if_false, digitsVal_natDigits, if_true]
    have e : -((k + 1 : Nat) : Int) = Int.negSucc k := rfl
    rw [e]; exact if_pos h

@[simp] theorem decInt_jInt {n cur : Int} (h : isInt64 n) : decInt cur (jInt n) = some n := parseInt64_itoa h
@[simp] theorem decOptInt_jInt {n : Int} {cur : Option Int} (h : isInt64 n) :
    decOptInt cur (jInt n) = some (some n) := by simp [decOptInt, jInt, parseInt64_itoa h]

/-! ### string lists -/

/-- Go standard library (encoding/json), used wherever the code decodes into or encodes from a
struct, e.g. pkg/types/types.go:64-78 `PluginConf` and pkg/types/100/types.go:90-96 `Result`. -/
def decStrElems : List Json → Option (List Bytes)
  | [] => some []
  | .str s :: l => (decStrElems l).map (s :: ·)
  | .null :: l => (decStrElems l).map ([] :: ·)
  | _ :: _ => none

/-- Into a `[]string` field (nil and empty are not distinguished). Go standard library
(encoding/json), used wherever the code decodes into or encodes from a struct, e.g.
pkg/types/types.go:64-78 `PluginConf` and pkg/types/100/types.go:90-96 `Result`. -/
def decStrList (_cur : List Bytes) : Json → Option (List Bytes)
  | .null => some []
  | .arr l => decStrElems l
  | _ => none

/-- Go standard library (encoding/json), used wherever the code decodes into or encodes from a
struct, e.g. pkg/types/types.go:64-78 `PluginConf` and pkg/types/100/types.go:90-96 `Result`. -/
def jStrList (l : List Bytes) : Json := .arr (l.map .str)

@[simp] theorem decStrElems_map (l : List Bytes) : decStrElems (l.map .str) = some l := by
  induction l with
  | nil => rfl
  | cons a l ih => simp [decStrElems, ih]

@[simp] theorem decStrList_jStrList (cur l : List Bytes) : decStrList cur (jStrList l) = some l := by
  simp [decStrList, jStrList]

/-! ### addresses -/

/-- Into a `net.IP` field (`null` and text). Go standard library (encoding/json), used wherever the
code decodes into or encodes from a struct, e.g. pkg/types/types.go:64-78 `PluginConf` and
pkg/types/100/types.go:90-96 `Result`. -/
def decIP (_cur : IP) : Json → Option IP
  | .null => some []
  | .str s => IP.unmarshalText s
  | _ => none

/-- pkg/types/types.go:44-57 `IPNet.UnmarshalJSON`: a string in CIDR notation; `null` decodes to the
empty string, which is not a CIDR. -/
def decIPNet (_cur : IPNet) : Json → Option IPNet
  | .str s => parseCIDR s
  | _ => none

/-- pkg/types/types.go:40-42 `IPNet.MarshalJSON`. -/
def jIPNet (n : IPNet) : Json := .str n.str

/-- A `net.IP` value; only used for addresses `MarshalText` accepts. Go standard library
(encoding/json), used wherever the code decodes into or encodes from a struct, e.g.
pkg/types/types.go:64-78 `PluginConf` and pkg/types/100/types.go:90-96 `Result`. -/
def jIP (ip : IP) : Json := .str (if ip = [] then [] else IP.str ip)

/-- An address field that survives encoding and decoding: absent or in 16-byte form. Proof device:
models no code. -/
def IP.Canon (ip : IP) : Prop := ip = [] ∨ ip.length = 16

theorem decIP_jIP {ip cur : IP} (h : ip.Canon) : decIP cur (jIP ip) = some ip := by
  rcases h with rfl | h
  · simp [decIP, jIP, IP.unmarshalText]
  · have hne : ip ≠ [] := by intro e; simp [e] at h
    simp only [decIP, jIP, hne, if_false, IP.unmarshalText, IP.str_ne_nil ip h, parseIP_str ip h]

theorem decIPNet_jIPNet {n cur : IPNet} (h : n.Canon) : decIPNet cur (jIPNet n) = some n :=
  parseCIDR_str h

theorem jIPNet_WF {n : IPNet} (h : n.Canon) : (jIPNet n).WF := isUtf8_of_ascii h.ascii

theorem jIP_WF {ip : IP} (h : ip.Canon) : (jIP ip).WF := by
  rcases h with rfl | h
  · simp only [jIP, if_true, Json.WF]; rfl
  · have hne : ip ≠ [] := by intro e; simp [e] at h
    simp only [jIP, hne, if_false, Json.WF]
    exact isUtf8_of_ascii (fun c hc => (IP.str_mem h hc).2)

theorem jInt_WF (n : Int) : (jInt n).WF := numValid_itoa n

/-! ### byte slices -/

/-- Into a `byte`: a number literal that is an integer up to 255. Go standard library
(encoding/json), used wherever the code decodes into or encodes from a struct, e.g.
pkg/types/types.go:64-78 `PluginConf` and pkg/types/100/types.go:90-96 `Result`. -/
def decByte : Json → Option UInt8
  | .null => some 0
  | .num l => if l = [] ∨ l.any (fun c => !isDigit c) then none else if digitsVal l < 256 then some (UInt8.ofNat (digitsVal l)) else none
  | _ => none

/-- Go standard library (encoding/json), used wherever the code decodes into or encodes from a
struct, e.g. pkg/types/types.go:64-78 `PluginConf` and pkg/types/100/types.go:90-96 `Result`. -/
def decByteElems : List Json → Option Bytes
  | [] => some []
  | j :: l => (decByte j).bind fun c => (decByteElems l).map (c :: ·)

/-- Into a `[]byte` field: base64 text (an array of numbers is accepted too). Go standard library
(encoding/json), used wherever the code decodes into or encodes from a struct, e.g.
pkg/types/types.go:64-78 `PluginConf` and pkg/types/100/types.go:90-96 `Result`. -/
def decBytes (_cur : Bytes) : Json → Option Bytes
  | .null => some []
  | .str s => b64Dec s
  | .arr l => decByteElems l
  | _ => none

/-- A `[]byte` value (nil and empty are not distinguished; Go prints nil as `null`). Go standard
library (encoding/json), used wherever the code decodes into or encodes from a struct, e.g.
pkg/types/types.go:64-78 `PluginConf` and pkg/types/100/types.go:90-96 `Result`. -/
def jBytes (b : Bytes) : Json := .str (b64Enc b)

@[simp] theorem decBytes_jBytes (cur b : Bytes) : decBytes cur (jBytes b) = some b := b64Dec_enc b

theorem jBytes_WF (b : Bytes) : (jBytes b).WF :=
  isUtf8_of_ascii (fun c hc => (b64Enc_chars b c hc).2)

/-- `json.Unmarshal(data, &struct)`: the document must be an object (or `null`, which leaves the
struct unchanged). Go standard library (encoding/json), used wherever the code decodes into or
encodes from a struct, e.g. pkg/types/types.go:64-78 `PluginConf` and
pkg/types/100/types.go:90-96 `Result`. -/
def structMembers : Json → Option (List (Bytes × Json))
  | .null => some []
  | .obj ms => some ms
  | _ => none

end Verif
