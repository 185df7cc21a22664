/- What the members of a JSON object say about the fields of a record. -/
import Verif.Spec.AddrRead

namespace Verif.Spec

/-- A member name stands for a field: it is the field's name in any letter case, where the Kelvin sign counts as a k and the long s as an s. -/
inductive NameFor : Bytes → Bytes → Prop
  | nil : NameFor [] []
  | same {f k : Bytes} (c : UInt8) (h : NameFor f k) : NameFor (c :: f) (c :: k)
  | lower {f k : Bytes} {c d : UInt8} (hc : 65 ≤ c.toNat ∧ c.toNat ≤ 90) (hd : d.toNat = c.toNat + 32) (h : NameFor f k) : NameFor (c :: f) (d :: k)
  | upper {f k : Bytes} {c d : UInt8} (hc : 97 ≤ c.toNat ∧ c.toNat ≤ 122) (hd : d.toNat + 32 = c.toNat) (h : NameFor f k) : NameFor (c :: f) (d :: k)
  | kelvin {f k : Bytes} {c : UInt8} (hc : c = 75 ∨ c = 107) (h : NameFor f k) : NameFor (c :: f) (0xE2 :: 0x84 :: 0xAA :: k)
  | longS {f k : Bytes} {c : UInt8} (hc : c = 83 ∨ c = 115) (h : NameFor f k) : NameFor (c :: f) (0xC5 :: 0xBF :: k)

/-- What an object gives for a field: the value of its only member for it, or nothing. -/
def Given (ms : List (Bytes × Json)) (f : Bytes) : Option Json → Prop
  | some v => ∃ a k b, ms = a ++ (k, v) :: b ∧ NameFor f k ∧ ∀ m ∈ a ++ b, ¬ NameFor f m.1
  | none => ∀ m ∈ ms, ¬ NameFor f m.1

/-- The object gives for a field what has the value `x`. -/
def Field {α : Type} (ms : List (Bytes × Json)) (f : Bytes) (val : Option Json → α → Prop) (x : α) : Prop := ∃ o, Given ms f o ∧ val o x

/-- A document is a part of a document. -/
inductive PartOf : Json → Json → Prop
  | self (j : Json) : PartOf j j
  | elem {j e : Json} {l : List Json} (he : e ∈ l) (h : PartOf j e) : PartOf j (.arr l)
  | member {j : Json} {m : Bytes × Json} {ms : List (Bytes × Json)} (hm : m ∈ ms) (h : PartOf j m.2) : PartOf j (.obj ms)

/-- No object in the document has two members for one field (of an ASCII name). -/
def NoRepeats (j : Json) : Prop :=
  ∀ ms, PartOf (.obj ms) j → ms.Pairwise fun m m' => ∀ f : Bytes, (∀ c ∈ f, c.toNat < 128) → ¬ (NameFor f m.1 ∧ NameFor f m'.1)

/-- Related element by element. -/
inductive Each {α β : Type} (R : α → β → Prop) : List α → List β → Prop
  | nil : Each R [] []
  | cons {a : α} {b : β} {l : List α} {m : List β} (h : R a b) (t : Each R l m) : Each R (a :: l) (b :: m)

/-! ### values -/

/-- A text; nothing and `null` are the empty text. -/
inductive TextVal : Option Json → Bytes → Prop
  | absent : TextVal none []
  | null : TextVal (some .null) []
  | text (s : Bytes) : TextVal (some (.str s)) s

/-- A text for a whole number. -/
inductive WholeText : Bytes → Int → Prop
  | pos {t : Bytes} {n : Nat} (h : Places DecDigit 10 t n) : WholeText t n
  | neg {t : Bytes} {n : Nat} (h : Places DecDigit 10 t n) : WholeText (45 :: t) (-n)

/-- A number literal without fraction and exponent, for a number of 64 bits. -/
def Whole (t : Bytes) (n : Int) : Prop := WholeText t n ∧ -2 ^ 63 ≤ n ∧ n < 2 ^ 63

/-- A whole number; nothing and `null` are zero. -/
inductive IntVal : Option Json → Int → Prop
  | absent : IntVal none 0
  | null : IntVal (some .null) 0
  | num {t : Bytes} {n : Int} (h : Whole t n) : IntVal (some (.num t)) n

/-- A whole number, or none: nothing and `null`. -/
inductive OptIntVal : Option Json → Option Int → Prop
  | absent : OptIntVal none none
  | null : OptIntVal (some .null) none
  | num {t : Bytes} {n : Int} (h : Whole t n) : OptIntVal (some (.num t)) (some n)

/-- An address, or none: nothing, `null` and the empty text. -/
inductive AddrVal : Option Json → Bytes → Prop
  | absent : AddrVal none []
  | null : AddrVal (some .null) []
  | empty : AddrVal (some (.str [])) []
  | text {t ip : Bytes} (h : AddressText t ip) : AddrVal (some (.str t)) ip

/-- A network, or nothing (but not `null`). -/
inductive NetVal : Option Json → IPNet → Prop
  | absent : NetVal none {}
  | text {t : Bytes} {n : IPNet} (h : NetworkText t n) : NetVal (some (.str t)) n

/-- A list; nothing and `null` are the empty list. -/
inductive ListVal {α : Type} (R : Json → α → Prop) : Option Json → List α → Prop
  | absent : ListVal R none []
  | null : ListVal R (some .null) []
  | list {l : List Json} {xs : List α} (h : Each R l xs) : ListVal R (some (.arr l)) xs

/-- A text in a list. -/
def TextElem (j : Json) (s : Bytes) : Prop := TextVal (some j) s

/-- A record: an object; `null` counts as an object without members. -/
inductive Record {α : Type} (R : List (Bytes × Json) → α → Prop) : Json → α → Prop
  | null {x : α} (h : R [] x) : Record R .null x
  | obj {ms : List (Bytes × Json)} {x : α} (h : R ms x) : Record R (.obj ms) x

/-- A record that may be missing: `null`. -/
inductive OptRecord {α : Type} (R : List (Bytes × Json) → α → Prop) : Json → Option α → Prop
  | null : OptRecord R .null none
  | obj {ms : List (Bytes × Json)} {x : α} (h : R ms x) : OptRecord R (.obj ms) (some x)

/-- A field that is a record; nothing counts as an object without members. -/
inductive RecordVal {α : Type} (R : List (Bytes × Json) → α → Prop) : Option Json → α → Prop
  | absent {x : α} (h : R [] x) : RecordVal R none x
  | given {j : Json} {x : α} (h : Record R j x) : RecordVal R (some j) x

/-- A field that is a record or missing. -/
inductive OptRecordVal {α : Type} (R : List (Bytes × Json) → α → Prop) : Option Json → Option α → Prop
  | absent : OptRecordVal R none none
  | given {j : Json} {x : Option α} (h : OptRecord R j x) : OptRecordVal R (some j) x

end Verif.Spec
