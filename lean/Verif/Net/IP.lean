/-
Go `net.IP` / `net.IPNet` and their text forms, as used by pkg/types/types.go:25-57 (`IPNet`
MarshalJSON/UnmarshalJSON, `ParseCIDR`) and by every `net.IP` field of the result types. `net` and
`net/netip` are the Go standard library; they are modelled byte by byte so that address round trips
are theorems rather than assumptions.
-/
import Verif.Json.RoundTrip

namespace Verif

/-- A `net.IP`: nil is the empty list, otherwise 4 or 16 bytes (other lengths are representable and
are what Go calls invalid). Go standard library (net, net/netip), used by
pkg/types/types.go:30-38 `ParseCIDR` and the address fields of e.g. pkg/types/types.go:180-188 `Route`. -/
abbrev IP := Bytes

/-- Go standard library (net, net/netip), used by pkg/types/types.go:30-38 `ParseCIDR` and the
address fields of e.g. pkg/types/types.go:180-188 `Route`. -/
def v4InV6Prefix : Bytes := [0, 0, 0, 0, 0, 0, 0, 0, 0, 0, 0xff, 0xff]

/-- `IP.To4`. Go standard library (net, net/netip), used by pkg/types/types.go:30-38 `ParseCIDR` and
the address fields of e.g. pkg/types/types.go:180-188 `Route`. -/
def IP.to4 (ip : IP) : Option Bytes :=
  if ip.length = 4 then some ip
  else if ip.length = 16 ∧ ip.take 12 = v4InV6Prefix then some (ip.drop 12)
  else none

/-- `net.IPNet`. Go standard library (net, net/netip), used by pkg/types/types.go:30-38 `ParseCIDR`
and the address fields of e.g. pkg/types/types.go:180-188 `Route`. -/
structure IPNet where
  ip : IP := []
  mask : Bytes := []
  deriving DecidableEq, Repr, Inhabited

/-! ### IPv4 text -/

/-- Dotted decimal of four bytes. Go standard library (net, net/netip), used by
pkg/types/types.go:30-38 `ParseCIDR` and the address fields of e.g.
pkg/types/types.go:180-188 `Route`. -/
def printV4 (b : Bytes) : Bytes := joinWith [46] (b.map fun x => natDigits x.toNat)

/-- One octet as netip's parseIPv4Fields reads it: 1 to 3 digits, no leading zero, at most 255. Go
standard library (net, net/netip), used by pkg/types/types.go:30-38 `ParseCIDR` and the address
fields of e.g. pkg/types/types.go:180-188 `Route`. -/
def parseOctet (s : Bytes) : Option UInt8 :=
  if s = [] ∨ s.any (fun c => !isDigit c) then none
  else if s.head? = some 48 ∧ s.length ≠ 1 then none
  else if digitsVal s ≤ 255 then some (UInt8.ofNat (digitsVal s)) else none

/-- `netip.parseIPv4Fields`. Go standard library (net, net/netip), used by
pkg/types/types.go:30-38 `ParseCIDR` and the address fields of e.g. pkg/types/types.go:180-188 `Route`. -/
def parseV4 (s : Bytes) : Option Bytes :=
  match splitOn 46 s with
  | [a, b, c, d] => match parseOctet a, parseOctet b, parseOctet c, parseOctet d with
    | some a, some b, some c, some d => some [a, b, c, d]
    | _, _, _, _ => none
  | _ => none

/-! ### IPv6 text -/

/-- Lower-case hexadecimal without leading zeros (netip `appendHex`). Go standard library (net,
net/netip), used by pkg/types/types.go:30-38 `ParseCIDR` and the address fields of e.g.
pkg/types/types.go:180-188 `Route`. -/
def hexDigits (n : Nat) : Bytes :=
  if n < 16 then [hexDigit n]
  else if n < 256 then [hexDigit (n / 16), hexDigit (n % 16)]
  else if n < 4096 then [hexDigit (n / 256), hexDigit (n / 16 % 16), hexDigit (n % 16)]
  else [hexDigit (n / 4096), hexDigit (n / 256 % 16), hexDigit (n / 16 % 16), hexDigit (n % 16)]

/-- The 16-bit groups of an address. Go standard library (net, net/netip), used by
pkg/types/types.go:30-38 `ParseCIDR` and the address fields of e.g.
pkg/types/types.go:180-188 `Route`. -/
def groups : Bytes → List Nat
  | a :: b :: r => (a.toNat * 256 + b.toNat) :: groups r
  | _ => []

/-- Go standard library (net, net/netip), used by pkg/types/types.go:30-38 `ParseCIDR` and the
address fields of e.g. pkg/types/types.go:180-188 `Route`. -/
def ungroup : List Nat → Bytes
  | [] => []
  | g :: r => UInt8.ofNat (g / 256) :: UInt8.ofNat (g % 256) :: ungroup r

/-- Length of the run of zero groups at the head. Go standard library (net, net/netip), used by
pkg/types/types.go:30-38 `ParseCIDR` and the address fields of e.g.
pkg/types/types.go:180-188 `Route`. -/
def zeroRun : List Nat → Nat
  | 0 :: r => zeroRun r + 1
  | _ => 0

/-- Leftmost longest run of at least two zero groups: (start, length). Go standard library (net,
net/netip), used by pkg/types/types.go:30-38 `ParseCIDR` and the address fields of e.g.
pkg/types/types.go:180-188 `Route`. -/
def bestRun : Nat → List Nat → Nat × Nat → Nat × Nat
  | _, [], best => best
  | i, g :: r, best =>
    let l := zeroRun (g :: r)
    bestRun (i + 1) r (if 2 ≤ l ∧ best.2 < l then (i, l) else best)

/-- `netip.Addr.appendTo6`. Go standard library (net, net/netip), used by
pkg/types/types.go:30-38 `ParseCIDR` and the address fields of e.g. pkg/types/types.go:180-188 `Route`. -/
def printV6 (b : Bytes) : Bytes :=
  let gs := groups b
  let run := bestRun 0 gs (0, 0)
  if run.2 = 0 then joinWith [58] (gs.map hexDigits)
  else joinWith [58] ((gs.take run.1).map hexDigits) ++ [58, 58]
    ++ joinWith [58] ((gs.drop (run.1 + run.2)).map hexDigits)

/-- Up to four hexadecimal digits at the head of `s`: value and rest; `none` if there are none or
more than four. Go standard library (net, net/netip), used by pkg/types/types.go:30-38 `ParseCIDR`
and the address fields of e.g. pkg/types/types.go:180-188 `Route`. -/
def scanHex (s : Bytes) : Option (Nat × Bytes) :=
  let ds := s.takeWhile fun c => (hexVal c).isSome
  if ds = [] ∨ 4 < ds.length then none
  else some (ds.foldl (fun a c => a * 16 + (hexVal c).getD 0) 0, s.drop ds.length)

/-- The loop of `netip.parseIPv6`: `acc` holds the bytes parsed so far, `ell` the position of `::`.
The fuel bounds the number of groups (at most 8). Go standard library (net, net/netip), used by
pkg/types/types.go:30-38 `ParseCIDR` and the address fields of e.g.
pkg/types/types.go:180-188 `Route`. -/
def parseV6Loop : Nat → Bytes → Bytes → Option Nat → Option (Bytes × Option Nat)
  | 0, s, acc, ell => if s = [] then some (acc, ell) else none
  | n + 1, s, acc, ell =>
    match scanHex s with
    | none => none
    | some (v, r) =>
      match r with
      | [] => some (acc ++ [UInt8.ofNat (v / 256), UInt8.ofNat (v % 256)], ell)
      | c :: r1 =>
        if c = 46 then
          if (ell = none ∧ acc.length ≠ 12) ∨ 16 < acc.length + 4 then none
          else (parseV4 s).map fun q => (acc ++ q, ell)
        else if c ≠ 58 then none
        else match r1 with
          | [] => none
          | d :: r2 =>
            let acc' := acc ++ [UInt8.ofNat (v / 256), UInt8.ofNat (v % 256)]
            if d = 58 then
              if ell.isSome then none
              else if r2 = [] then some (acc', some acc'.length)
              else parseV6Loop n r2 acc' (some acc'.length)
            else parseV6Loop n (d :: r2) acc' ell

/-- First part of `netip.parseIPv6`: a leading `::`, then the group loop. Go standard library (net,
net/netip), used by pkg/types/types.go:30-38 `ParseCIDR` and the address fields of e.g.
pkg/types/types.go:180-188 `Route`. -/
def parseV6Start : Bytes → Option (Bytes × Option Nat)
  | 58 :: 58 :: r => if r = [] then some ([], some 0) else parseV6Loop 8 r [] (some 0)
  | s => parseV6Loop 8 s [] none

/-- Last part of `netip.parseIPv6`: expand the `::`. Go standard library (net, net/netip), used by
pkg/types/types.go:30-38 `ParseCIDR` and the address fields of e.g.
pkg/types/types.go:180-188 `Route`. -/
def parseV6Finish (b : Bytes) (ell : Option Nat) : Option Bytes :=
  if b.length < 16 then
    match ell with
    | none => none
    | some e => some (b.take e ++ List.replicate (16 - b.length) 0 ++ b.drop e)
  else if ell.isSome then none
  else some b

/-- `netip.parseIPv6` without zones (`net.ParseIP` and `net.ParseCIDR` reject zones). Go standard
library (net, net/netip), used by pkg/types/types.go:30-38 `ParseCIDR` and the address fields of
e.g. pkg/types/types.go:180-188 `Route`. -/
def parseV6 (s : Bytes) : Option Bytes :=
  match parseV6Start s with
  | none => none
  | some (b, ell) => parseV6Finish b ell

/-! ### addresses -/

/-- `netip.ParseAddr` without zones: the first of `.`, `:`, `%` decides the family. Go standard
library (net, net/netip), used by pkg/types/types.go:30-38 `ParseCIDR` and the address fields of
e.g. pkg/types/types.go:180-188 `Route`. -/
def parseAddr (s : Bytes) : Option (Bytes × Nat) :=
  if 37 ∈ s then none
  else match s.find? (fun c => c = 46 ∨ c = 58) with
    | some 46 => (parseV4 s).map fun b => (v4InV6Prefix ++ b, 32)
    | some 58 => (parseV6 s).map fun b => (b, 128)
    | _ => none

/-- `net.ParseIP`: always the 16-byte form. Go standard library (net, net/netip), used by
pkg/types/types.go:30-38 `ParseCIDR` and the address fields of e.g.
pkg/types/types.go:180-188 `Route`. -/
def parseIP (s : Bytes) : Option IP := (parseAddr s).map (·.1)

/-- Go standard library (net, net/netip), used by pkg/types/types.go:30-38 `ParseCIDR` and the
address fields of e.g. pkg/types/types.go:180-188 `Route`. -/
def hexString (b : Bytes) : Bytes := b.flatMap fun c => [hexDigit (c.toNat / 16), hexDigit (c.toNat % 16)]

/-- `IP.String`. Go standard library (net, net/netip), used by pkg/types/types.go:30-38 `ParseCIDR`
and the address fields of e.g. pkg/types/types.go:180-188 `Route`. -/
def IP.str (ip : IP) : Bytes :=
  if ip = [] then b!"<nil>"
  else if ip.length ≠ 4 ∧ ip.length ≠ 16 then b!"?" ++ hexString ip
  else match IP.to4 ip with
    | some q => printV4 q
    | none => printV6 ip

/-- `IP.UnmarshalText`. Go standard library (net, net/netip), used by
pkg/types/types.go:30-38 `ParseCIDR` and the address fields of e.g. pkg/types/types.go:180-188 `Route`. -/
def IP.unmarshalText (s : Bytes) : Option IP := if s = [] then some [] else parseIP s

/-- `IP.MarshalText`; `none` is the error for a malformed address. Go standard library (net,
net/netip), used by pkg/types/types.go:30-38 `ParseCIDR` and the address fields of e.g.
pkg/types/types.go:180-188 `Route`. -/
def IP.marshalText (ip : IP) : Option Bytes :=
  if ip = [] then some []
  else if ip.length ≠ 4 ∧ ip.length ≠ 16 then none
  else some (IP.str ip)

/-! ### masks and networks -/

/-- The mask byte with `k < 8` leading ones. Go standard library (net, net/netip), used by
pkg/types/types.go:30-38 `ParseCIDR` and the address fields of e.g.
pkg/types/types.go:180-188 `Route`. -/
def partialMask (k : Nat) : UInt8 := UInt8.ofNat (256 - 2 ^ (8 - k))

/-- `net.CIDRMask(n, 8*l)`. Go standard library (net, net/netip), used by
pkg/types/types.go:30-38 `ParseCIDR` and the address fields of e.g. pkg/types/types.go:180-188 `Route`. -/
def cidrMask : Nat → Nat → Bytes
  | 0, _ => []
  | l + 1, n => if 8 ≤ n then 255 :: cidrMask l (n - 8) else partialMask n :: List.replicate l 0

/-- Go standard library (net, net/netip), used by pkg/types/types.go:30-38 `ParseCIDR` and the
address fields of e.g. pkg/types/types.go:180-188 `Route`. -/
def leadOnes (v : UInt8) : Option Nat :=
  if v = 0 then some 0 else if v = 128 then some 1 else if v = 192 then some 2
  else if v = 224 then some 3 else if v = 240 then some 4 else if v = 248 then some 5
  else if v = 252 then some 6 else if v = 254 then some 7 else none

/-- `net.simpleMaskLength`; `none` is -1. Go standard library (net, net/netip), used by
pkg/types/types.go:30-38 `ParseCIDR` and the address fields of e.g.
pkg/types/types.go:180-188 `Route`. -/
def maskLen : Bytes → Option Nat
  | [] => some 0
  | v :: r =>
    if v = 255 then (maskLen r).map (· + 8)
    else match leadOnes v with
      | none => none
      | some k => if r.all (· = 0) then some k else none

/-- `IPMask.String`. Go standard library (net, net/netip), used by
pkg/types/types.go:30-38 `ParseCIDR` and the address fields of e.g. pkg/types/types.go:180-188 `Route`. -/
def maskStr (m : Bytes) : Bytes := if m = [] then b!"<nil>" else hexString m

/-- `net.networkNumberAndMask`. Go standard library (net, net/netip), used by
pkg/types/types.go:30-38 `ParseCIDR` and the address fields of e.g.
pkg/types/types.go:180-188 `Route`. -/
def IPNet.norm (n : IPNet) : Option (Bytes × Bytes) :=
  match (match IP.to4 n.ip with
    | some q => some q
    | none => if n.ip.length = 16 then some n.ip else none) with
  | none => none
  | some nn =>
    if n.mask.length = 4 then (if nn.length = 4 then some (nn, n.mask) else none)
    else if n.mask.length = 16 then
      (if nn.length = 4 then some (nn, n.mask.drop 12) else some (nn, n.mask))
    else none

/-- `IPNet.String`. Go standard library (net, net/netip), used by
pkg/types/types.go:30-38 `ParseCIDR` and the address fields of e.g. pkg/types/types.go:180-188 `Route`. -/
def IPNet.str (n : IPNet) : Bytes :=
  match n.norm with
  | none => b!"<nil>"
  | some (nn, m) =>
    match maskLen m with
    | none => IP.str nn ++ [47] ++ maskStr m
    | some l => IP.str nn ++ [47] ++ natDigits l

/-- `strings.Cut(s, "/")`. Go standard library (net, net/netip), used by
pkg/types/types.go:30-38 `ParseCIDR` and the address fields of e.g. pkg/types/types.go:180-188 `Route`. -/
def cutSlash : Bytes → Option (Bytes × Bytes)
  | [] => none
  | c :: r => if c = 47 then some ([], r) else (cutSlash r).map fun p => (c :: p.1, p.2)

/-- pkg/types/types.go:30-38 `ParseCIDR` (net.ParseCIDR keeping the host bits): the address is
always in 16-byte form, the mask has the length of the textual family. -/
def parseCIDR (s : Bytes) : Option IPNet :=
  match cutSlash s with
  | none => none
  | some (a, m) =>
    match parseAddr a with
    | none => none
    | some (b, bits) =>
      if m = [] ∨ m.any (fun c => !isDigit c) then none
      else if bits < digitsVal m then none
      else some { ip := b, mask := cidrMask (bits / 8) (digitsVal m) }

example : (parseCIDR b!"10.2.3.1/24").map IPNet.str = some b!"10.2.3.1/24" := by decide
example : (parseCIDR b!"2001:db8::1:0/64").map IPNet.str = some b!"2001:db8::1:0/64" := by decide
example : (parseCIDR b!"::ffff:1.2.3.4/120").map IPNet.str = some b!"1.2.3.4/24" := by decide
example : (parseCIDR b!"1:2:3:4:5:6:7:8/128").map IPNet.str = some b!"1:2:3:4:5:6:7:8/128" := by decide
example : (parseCIDR b!"::/0").map IPNet.str = some b!"::/0" := by decide
example : parseCIDR b!"<nil>" = none := by decide
example : parseIP b!"1.2.3" = none := by decide
example : parseIP b!"01.2.3.4" = none := by decide
example : parseIP b!"1::2::3" = none := by decide

end Verif
