/- The grammar of JSON (RFC 8259), with the value of each text. Independent of the parser. -/
import Verif.Json.Json

namespace Verif.Spec

/-- Space, tab, line feed and carriage return. -/
def Ws (t : Bytes) : Prop := ∀ c ∈ t, c = 32 ∨ c = 9 ∨ c = 10 ∨ c = 13

/-- Decimal digits. -/
def Digits (t : Bytes) : Prop := ∀ c ∈ t, 48 ≤ c.toNat ∧ c.toNat ≤ 57

/-- A number: an optional minus; zero, or digits the first of which is not zero; optionally a point and digits; optionally `e` or `E`, an
optional sign and digits. -/
def NumberText (t : Bytes) : Prop :=
  ∃ sign int frac exp, t = sign ++ int ++ frac ++ exp ∧ (sign = [] ∨ sign = [45]) ∧
    (int = [48] ∨ ∃ c ds, int = c :: ds ∧ c ≠ 48 ∧ Digits int) ∧
    (frac = [] ∨ ∃ ds, frac = 46 :: ds ∧ ds ≠ [] ∧ Digits ds) ∧
    (exp = [] ∨ ∃ e s ds, exp = e :: (s ++ ds) ∧ (e = 101 ∨ e = 69) ∧ (s = [] ∨ s = [43] ∨ s = [45]) ∧ ds ≠ [] ∧ Digits ds)

/-- The value of a hexadecimal digit, in upper or lower case. -/
def HexDigit (c : UInt8) (v : Nat) : Prop :=
  (v < 10 ∧ c.toNat = 48 + v) ∨ (10 ≤ v ∧ v < 16 ∧ (c.toNat = 87 + v ∨ c.toNat = 55 + v))

/-- `\u` and four hexadecimal digits, and their value. -/
def HexEscape (t : Bytes) (v : Nat) : Prop :=
  ∃ a b c d w x y z, t = [92, 117, a, b, c, d] ∧ HexDigit a w ∧ HexDigit b x ∧ HexDigit c y ∧ HexDigit d z ∧
    v = w * 4096 + x * 256 + y * 16 + z

/-- The first and the second half of a surrogate pair. -/
def High (v : Nat) : Prop := 0xD800 ≤ v ∧ v < 0xDC00
def Low (v : Nat) : Prop := 0xDC00 ≤ v ∧ v < 0xE000

/-- A Unicode scalar value and its bytes in UTF-8. -/
def Utf8 (v : Nat) (bs : Bytes) : Prop :=
  (v < 0x80 ∧ bs.map UInt8.toNat = [v]) ∨
  (0x80 ≤ v ∧ v < 0x800 ∧ bs.map UInt8.toNat = [0xC0 + v / 64, 0x80 + v % 64]) ∨
  (0x800 ≤ v ∧ v < 0x10000 ∧ ¬ High v ∧ ¬ Low v ∧ bs.map UInt8.toNat = [0xE0 + v / 4096, 0x80 + v / 64 % 64, 0x80 + v % 64]) ∨
  (0x10000 ≤ v ∧ v < 0x110000 ∧ bs.map UInt8.toNat = [0xF0 + v / 262144, 0x80 + v / 4096 % 64, 0x80 + v / 64 % 64, 0x80 + v % 64])

/-- The backslash escapes of one character, and their bytes. -/
def simpleEscapes : List (UInt8 × UInt8) := [(34, 34), (92, 92), (47, 47), (98, 8), (102, 12), (110, 10), (114, 13), (116, 9)]

/-- The text between the quotes of a string, and its bytes. Half a surrogate pair is the replacement character. -/
inductive StringBody : Bytes → Bytes → Prop
  | nil : StringBody [] []
  | plain {c : UInt8} {t s : Bytes} (h1 : 32 ≤ c.toNat) (h2 : c ≠ 34) (h3 : c ≠ 92) (h : StringBody t s) : StringBody (c :: t) (c :: s)
  | simple {c b : UInt8} {t s : Bytes} (hc : (c, b) ∈ simpleEscapes) (h : StringBody t s) : StringBody (92 :: c :: t) (b :: s)
  | unicode {u t s bs : Bytes} {v : Nat} (hu : HexEscape u v) (hb : Utf8 v bs) (h : StringBody t s) : StringBody (u ++ t) (bs ++ s)
  | pair {u u' t s bs : Bytes} {v v' : Nat} (hu : HexEscape u v) (hu' : HexEscape u' v') (hv : High v) (hv' : Low v')
      (hb : Utf8 (0x10000 + (v - 0xD800) * 0x400 + (v' - 0xDC00)) bs) (h : StringBody t s) : StringBody (u ++ u' ++ t) (bs ++ s)
  | half {u t s : Bytes} {v : Nat} (hu : HexEscape u v) (hv : High v ∨ Low v)
      (hno : High v → ∀ u' t' v', t = u' ++ t' → HexEscape u' v' → ¬ Low v') (h : StringBody t s) :
      StringBody (u ++ t) ([0xEF, 0xBF, 0xBD] ++ s)

/-- Every byte that does not belong to the UTF-8 of a character is replaced by the replacement character. -/
inductive Repaired : Bytes → Bytes → Prop
  | nil : Repaired [] []
  | char {v : Nat} {bs t s : Bytes} (hb : Utf8 v bs) (h : Repaired t s) : Repaired (bs ++ t) (bs ++ s)
  | bad {c : UInt8} {t s : Bytes} (hno : ∀ v bs t', c :: t = bs ++ t' → ¬ Utf8 v bs) (h : Repaired t s) :
      Repaired (c :: t) ([0xEF, 0xBF, 0xBD] ++ s)

/-- A string with its quotes, and its value. -/
def StringText (t s : Bytes) : Prop := ∃ body raw, t = [34] ++ body ++ [34] ∧ StringBody body raw ∧ Repaired raw s

/-- What a text is: a value, the elements of an array (one at least), or the members of an object (one at least). -/
inductive Part where
  | value
  | elements
  | members

/-- The text and its value. Numbers are kept as they are written, members in their order, repeated ones too. -/
inductive Text : Part → Bytes → Json → Prop
  | null : Text .value b!"null" .null
  | true : Text .value b!"true" (.bool true)
  | false : Text .value b!"false" (.bool false)
  | num {t : Bytes} (h : NumberText t) : Text .value t (.num t)
  | str {t s : Bytes} (h : StringText t s) : Text .value t (.str s)
  | noElements {w : Bytes} (hw : Ws w) : Text .value ([91] ++ w ++ [93]) (.arr [])
  | array {t : Bytes} {l : List Json} (h : Text .elements t (.arr l)) : Text .value ([91] ++ t ++ [93]) (.arr l)
  | noMembers {w : Bytes} (hw : Ws w) : Text .value ([123] ++ w ++ [125]) (.obj [])
  | object {t : Bytes} {l : List (Bytes × Json)} (h : Text .members t (.obj l)) : Text .value ([123] ++ t ++ [125]) (.obj l)
  | element {a t b : Bytes} {j : Json} (ha : Ws a) (hb : Ws b) (h : Text .value t j) : Text .elements (a ++ t ++ b) (.arr [j])
  | moreElements {a t b u : Bytes} {j : Json} {l : List Json} (ha : Ws a) (hb : Ws b) (h : Text .value t j) (hl : Text .elements u (.arr l)) :
      Text .elements (a ++ t ++ b ++ [44] ++ u) (.arr (j :: l))
  | member {a k b c t d name : Bytes} {j : Json} (ha : Ws a) (hb : Ws b) (hc : Ws c) (hd : Ws d) (hk : StringText k name) (h : Text .value t j) :
      Text .members (a ++ k ++ b ++ [58] ++ c ++ t ++ d) (.obj [(name, j)])
  | moreMembers {a k b c t d name u : Bytes} {j : Json} {l : List (Bytes × Json)} (ha : Ws a) (hb : Ws b) (hc : Ws c) (hd : Ws d)
      (hk : StringText k name) (h : Text .value t j) (hl : Text .members u (.obj l)) :
      Text .members (a ++ k ++ b ++ [58] ++ c ++ t ++ d ++ [44] ++ u) (.obj ((name, j) :: l))

/-- A document: a value with white space around it. -/
def JsonText (t : Bytes) (j : Json) : Prop := ∃ a v b, t = a ++ v ++ b ∧ Ws a ∧ Ws b ∧ Text .value v j

end Verif.Spec
