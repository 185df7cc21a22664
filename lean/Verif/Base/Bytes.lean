/-
Go strings and byte slices as lists of bytes, plus the handful of functions of Go's
`strings` package used by the repository.
-/


namespace Verif

/-- A Go `string` or `[]byte`: an arbitrary sequence of bytes (not necessarily UTF-8). The strings
and byte slices of all modelled code, e.g. libcni/api.go:54-68 `RuntimeConf`. -/
abbrev Bytes := List UInt8

open Lean in
/-- `b!"abc"` is the list of UTF-8 bytes of a string literal. -/
macro:max "b!" s:str : term => do
  let bytes := s.getString.toUTF8.toList
  let elems ← bytes.toArray.mapM fun (x : UInt8) => do
    let n := Syntax.mkNumLit (toString x.toNat)
    `(($n : UInt8))
  `(([ $elems,* ] : List UInt8))

/-- Bytewise "less than" of Go strings (`<` on strings, `sort.Strings`, `strings.Compare`). Go
standard library (comparison of strings), used by the sort in
libcni/api.go:430-488 `CNIConfig.GetCachedAttachments` and libcni/conf.go:327-347 `LoadConf`. -/
def Bytes.lt : Bytes → Bytes → Bool
  | [], [] => false
  | [], _ :: _ => true
  | _ :: _, [] => false
  | a :: as, b :: bs => if a < b then true else if a = b then Bytes.lt as bs else false

/-- `strings.Split(s, sep)` for a one-byte separator: always at least one piece. Go standard library
(strings), used by pkg/types/args.go:73-122 `LoadArgs`, pkg/version/plugin.go:87-118 `ParseVersion`
and cnitool/cnitool.go:46-60 `parseArgs`. -/
def splitOn (sep : UInt8) : Bytes → List Bytes
  | [] => [[]]
  | c :: cs =>
    if c = sep then [] :: splitOn sep cs
    else match splitOn sep cs with
      | [] => [[c]]
      | p :: ps => (c :: p) :: ps

/-- `strings.Join(parts, sep)`. Go standard library (strings), used by
pkg/invoke/args.go:77-85 `stringify`, libcni/api.go:891-900 `CNIConfig.args` and pkg/skel/skel.go:59-188 `dispatcher.getCmdArgsFromEnv`. -/
def joinWith (sep : Bytes) : List Bytes → Bytes
  | [] => []
  | [p] => p
  | p :: q :: ps => p ++ sep ++ joinWith sep (q :: ps)

/-- `strings.HasPrefix(s, p)`. Go standard library (strings), used by `os.Getenv` as read in
libcni/api.go:891-900 `CNIConfig.args` and pkg/skel/skel.go:59-188 `dispatcher.getCmdArgsFromEnv`. -/
def hasPrefix : Bytes → Bytes → Bool
  | _, [] => true
  | [], _ :: _ => false
  | s :: ss, p :: ps => s == p && hasPrefix ss ps

/-- `strings.Index(s, sub)`: the first position at which `sub` occurs. Go standard library
(strings), used by pkg/invoke/args.go:109-128 `dedupEnv` and
libcni/api.go:430-488 `CNIConfig.GetCachedAttachments`. -/
def indexOf (sub : Bytes) : Bytes → Option Nat
  | [] => if sub = [] then some 0 else none
  | c :: cs =>
    if hasPrefix (c :: cs) sub then some 0
    else (indexOf sub cs).map (· + 1)

/-- `strings.Contains(s, sub)`. Go standard library (strings), used by
pkg/invoke/raw_exec.go:34-70 `RawExec.ExecPlugin` and pkg/invoke/find.go:25-48 `FindInPath`. -/
def containsSub (s sub : Bytes) : Bool := (indexOf sub s).isSome

/-- Digits `0`-`9`: the class `[0-9]` of pkg/utils/utils.go:35 `cniReg` and the digits of strconv
in pkg/version/plugin.go:87-118 `ParseVersion`. -/
def isDigit (c : UInt8) : Bool := 48 ≤ c && c ≤ 57
/-- The class `[A-Z]` of pkg/utils/utils.go:35 `cniReg`. -/
def isUpper (c : UInt8) : Bool := 65 ≤ c && c ≤ 90
/-- The class `[a-z]` of pkg/utils/utils.go:35 `cniReg`. -/
def isLower (c : UInt8) : Bool := 97 ≤ c && c ≤ 122
/-- The class `[a-zA-Z0-9]` of pkg/utils/utils.go:35 `cniReg`. -/
def isAlnum (c : UInt8) : Bool := isDigit c || isUpper c || isLower c

/-- ASCII part of `unicode.ToLower`; exact wherever the result is compared with an ASCII word
containing neither `i` nor `k` (those also have non-ASCII upper-case forms). Used by
libcni/conf.go:92-245 `NetworkConfFromBytes` and pkg/types/args.go:31-42 `UnmarshallableBool.UnmarshalText`. -/
def lowerByte (c : UInt8) : UInt8 := if isUpper c then c + 32 else c
/-- ASCII part of `unicode.ToUpper`, for pkg/skel/skel.go:232-346 `dispatcher.pluginMain`. -/
def upperByte (c : UInt8) : UInt8 := if isLower c then c - 32 else c
/-- `strings.ToLower` (see `lowerByte`), used by libcni/conf.go:92-245 `NetworkConfFromBytes` and
pkg/types/args.go:31-42 `UnmarshallableBool.UnmarshalText`. -/
def toLower (s : Bytes) : Bytes := s.map lowerByte
/-- `strings.ToUpper` (ASCII part), used by pkg/skel/skel.go:232-346 `dispatcher.pluginMain`. -/
def toUpper (s : Bytes) : Bytes := s.map upperByte

/-- `strconv.Itoa` on naturals: decimal digits, most significant first, no leading zero. Fuel `n`
always suffices because each step divides by ten. Go standard library (strconv, fmt), used by
integers printed by encoding/json, e.g. pkg/types/types.go:180-188 `Route`. -/
def natDigitsF : Nat → Nat → Bytes
  | 0, n => [UInt8.ofNat (48 + n % 10)]
  | f + 1, n =>
    if n < 10 then [UInt8.ofNat (48 + n)]
    else natDigitsF f (n / 10) ++ [UInt8.ofNat (48 + n % 10)]

/-- Go standard library (decimal digits of a natural), used by integers printed by encoding/json,
e.g. pkg/types/types.go:180-188 `Route`. -/
def natDigits (n : Nat) : Bytes := natDigitsF n n

/-- `strconv.Itoa`. Go standard library (strconv), used by integers printed by encoding/json, e.g.
pkg/types/types.go:180-188 `Route`. -/
def itoa : Int → Bytes
  | .ofNat n => natDigits n
  | .negSucc n => 45 :: natDigits (n + 1)

/-- Value of a string of decimal digits (caller checks that all bytes are digits). Go standard
library (strconv), used by pkg/version/plugin.go:87-118 `ParseVersion`. -/
def digitsVal (s : Bytes) : Nat := s.foldl (fun a c => a * 10 + (c.toNat - 48)) 0

example : b!"A-z" = [65, 45, 122] := rfl
example : splitOn 46 b!"1.22.3" = [b!"1", b!"22", b!"3"] := by decide
example : natDigits 1050 = b!"1050" := by decide
example : itoa (-42) = b!"-42" := by decide

end Verif
