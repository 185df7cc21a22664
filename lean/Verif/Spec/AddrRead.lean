/- The texts of addresses and networks that are accepted when they are read (RFC 4291 section 2.2, and dotted decimal), with their values. -/
import Verif.Spec.AddrText
import Verif.Spec.Grammar
import Verif.Spec.Digits

namespace Verif.Spec

/-- One to four hexadecimal digits and their value in two bytes. -/
def Hextet (t : Bytes) (a b : UInt8) : Prop := t.length ≤ 4 ∧ Places HexDigit 16 t (a.toNat * 256 + b.toNat)

/-- Groups with colons between them. -/
inductive Groups : Bytes → Bytes → Prop
  | one {t : Bytes} {a b : UInt8} (h : Hextet t a b) : Groups t [a, b]
  | more {t u bs : Bytes} {a b : UInt8} (h : Hextet t a b) (hu : Groups u bs) : Groups (t ++ [58] ++ u) ([a, b] ++ bs)

/-- Groups with colons between them, the last two of which may be written as an IPv4 address. -/
inductive Tail : Bytes → Bytes → Prop
  | one {t : Bytes} {a b : UInt8} (h : Hextet t a b) : Tail t [a, b]
  | dotted {t q : Bytes} (h : DottedText q t) : Tail t q
  | more {t u bs : Bytes} {a b : UInt8} (h : Hextet t a b) (hu : Tail u bs) : Tail (t ++ [58] ++ u) ([a, b] ++ bs)

/-- The text of an IPv6 address: all eight groups, or fewer with two colons once in place of the missing ones, which are zero. -/
def V6Text (t ip : Bytes) : Prop :=
  ip.length = 16 ∧ (Tail t ip ∨
    ∃ l r lb rb, t = l ++ [58, 58] ++ r ∧ (l = [] ∧ lb = [] ∨ Groups l lb) ∧ (r = [] ∧ rb = [] ∨ Tail r rb) ∧
      ∃ n, 0 < n ∧ ip = lb ++ List.replicate n 0 ++ rb)

/-- The text of an address, and the address in its sixteen-byte form. -/
def AddressText (t ip : Bytes) : Prop :=
  (∃ q, DottedText q t ∧ ip = [0, 0, 0, 0, 0, 0, 0, 0, 0, 0, 255, 255] ++ q) ∨ V6Text t ip

/-- The text of a network: an address, a slash and the number of one bits of the mask. The mask is as long as the address is as a text: four bytes
after dotted decimal, sixteen otherwise. -/
def NetworkText (t : Bytes) (n : IPNet) : Prop :=
  ∃ a m k, t = a ++ [47] ++ m ∧ Places DecDigit 10 m k ∧
    ((∃ q, DottedText q a ∧ n.ip = [0, 0, 0, 0, 0, 0, 0, 0, 0, 0, 255, 255] ++ q ∧ IsMask n.mask 4 k) ∨ (V6Text a n.ip ∧ IsMask n.mask 16 k))

end Verif.Spec
