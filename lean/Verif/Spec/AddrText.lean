/- The canonical text of addresses and networks (RFC 5952, and dotted decimal). -/
import Verif.Net.IP

namespace Verif.Spec

/-- A digit in lower case, and its value. -/
def Digit (c : UInt8) (v : Nat) : Prop := (v < 10 ∧ c.toNat = 48 + v) ∨ (10 ≤ v ∧ v < 16 ∧ c.toNat = 87 + v)

/-- The text is that number in that base, with lower-case digits and without leading zeros. -/
inductive Numeral (base : Nat) : Bytes → Nat → Prop
  | digit {c : UInt8} {v : Nat} (hv : v < base) (h : Digit c v) : Numeral base [c] v
  | more {t : Bytes} {n : Nat} {c : UInt8} {v : Nat} (ht : Numeral base t n) (hn : n ≠ 0) (hv : v < base) (h : Digit c v) :
      Numeral base (t ++ [c]) (n * base + v)

/-- Four decimal numbers with dots between them. -/
def DottedText (q : List UInt8) (t : Bytes) : Prop :=
  ∃ a b c d ta tb tc td, q = [a, b, c, d] ∧ Numeral 10 ta a.toNat ∧ Numeral 10 tb b.toNat ∧ Numeral 10 tc c.toNat ∧ Numeral 10 td d.toNat ∧
    t = ta ++ [46] ++ tb ++ [46] ++ tc ++ [46] ++ td

/-- The `n` groups from position `s` on are zero. -/
def Zeros (gs : List Nat) (s n : Nat) : Prop := ∀ k, k < n → gs[s + k]? = some 0

/-- Hexadecimal numbers with colons between them; the longest run of two or more zeros, the first one if there are several of that length, is
written as two colons. -/
def ColonText (gs : List Nat) (t : Bytes) : Prop :=
  ∃ ts : List Bytes, ts.length = gs.length ∧ (∀ (i g : Nat) (x : Bytes), gs[i]? = some g → ts[i]? = some x → Numeral 16 x g) ∧
    ((∀ s n, Zeros gs s n → n < 2) ∧ t = List.intercalate [58] ts ∨
      ∃ s n, 2 ≤ n ∧ Zeros gs s n ∧ (∀ s' n', Zeros gs s' n' → n' ≤ n ∧ (n' = n → s ≤ s')) ∧
        t = List.intercalate [58] (ts.take s) ++ [58, 58] ++ List.intercalate [58] (ts.drop (s + n)))

/-- The four bytes of an IPv4 address, in either of its forms. -/
def IsV4 (ip : List UInt8) (q : List UInt8) : Prop := q.length = 4 ∧ (ip = q ∨ ip = [0, 0, 0, 0, 0, 0, 0, 0, 0, 0, 255, 255] ++ q)

/-- The canonical text of an address: of an IPv4 address dotted decimal, of any other one as RFC 5952 says. -/
def AddrText (ip : List UInt8) (t : Bytes) : Prop :=
  (∃ q, IsV4 ip q ∧ DottedText q t) ∨
    ((∀ q, ¬ IsV4 ip q) ∧ ∃ gs : List Nat, gs.length = 8 ∧ ip.length = 16 ∧
      (∀ (i : Nat) (a b : UInt8), ip[2 * i]? = some a → ip[2 * i + 1]? = some b → gs[i]? = some (a.toNat * 256 + b.toNat)) ∧ ColonText gs t)

/-- A mask of `n` bytes: `p` one bits, then zero bits. -/
def IsMask (m : List UInt8) (n p : Nat) : Prop :=
  m.length = n ∧ p ≤ 8 * n ∧ ∀ (i : Nat) (v : UInt8), m[i]? = some v → ∀ j, j < 8 → (v.toNat.testBit (7 - j) = true ↔ 8 * i + j < p)

/-- The canonical text of a network: address, slash, number of one bits of the mask. -/
def NetText (n : IPNet) (t : Bytes) : Prop :=
  ∃ a p tp, AddrText n.ip a ∧ ((∃ q, IsV4 n.ip q) ∧ IsMask n.mask 4 p ∨ (∀ q, ¬ IsV4 n.ip q) ∧ IsMask n.mask 16 p) ∧ Numeral 10 tp p ∧
    t = a ++ [47] ++ tp

end Verif.Spec
