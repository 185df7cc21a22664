/-
Byte-level model of the parts of Go's `encoding/json` the repository uses:
syntax check + parsing (`json.Unmarshal`'s first phase) and compact printing (`json.Marshal`).
This is the standard library, not the repository; it is modelled concretely so that nothing about
marshal/unmarshal round trips has to be assumed.
-/
import Verif.Base.GoMap

namespace Verif

/-- A JSON document. Numbers are kept as their literal, object members in document order (duplicates
included), strings already unescaped. Go standard library (encoding/json, unicode/utf8), through
which all configurations, results and cache entries go, e.g. libcni/conf.go:392-417 `InjectConf`,
libcni/api.go:259-297 `CNIConfig.cacheAdd`, pkg/invoke/exec.go:121-137 `ExecPluginWithResult`. -/
inductive Json where
  | null
  | bool (b : Bool)
  | num (lit : Bytes)
  | str (s : Bytes)
  | arr (l : List Json)
  | obj (l : List (Bytes × Json))
  deriving Inhabited

/-! ### UTF-8 -/

/-- Go standard library (encoding/json, unicode/utf8), through which all configurations, results and
cache entries go, e.g. libcni/conf.go:392-417 `InjectConf`, libcni/api.go:259-297 `CNIConfig.cacheAdd`,
pkg/invoke/exec.go:121-137 `ExecPluginWithResult`. -/
def isCont (c : UInt8) : Bool := 0x80 ≤ c && c ≤ 0xBF

/-- Length of the valid UTF-8 encoded rune at the head, 0 if there is none (Go `utf8.DecodeRune`:
size 1 + RuneError). Go standard library (encoding/json, unicode/utf8), through which all
configurations, results and cache entries go, e.g. libcni/conf.go:392-417 `InjectConf`,
libcni/api.go:259-297 `CNIConfig.cacheAdd`, pkg/invoke/exec.go:121-137 `ExecPluginWithResult`. -/
def runeLen : Bytes → Nat
  | [] => 0
  | b0 :: r =>
    if b0 < 0x80 then 1
    else match r with
      | [] => 0
      | b1 :: r1 =>
        if 0xC2 ≤ b0 && b0 ≤ 0xDF then (if isCont b1 then 2 else 0)
        else match r1 with
          | [] => 0
          | b2 :: r2 =>
            if 0xE0 ≤ b0 && b0 ≤ 0xEF then
              (if isCont b1 && isCont b2 && !(b0 == 0xE0 && b1 < 0xA0) && !(b0 == 0xED && 0xA0 ≤ b1)
               then 3 else 0)
            else match r2 with
              | [] => 0
              | b3 :: _ =>
                if 0xF0 ≤ b0 && b0 ≤ 0xF4 then
                  (if isCont b1 && isCont b2 && isCont b3 && !(b0 == 0xF0 && b1 < 0x90)
                      && !(b0 == 0xF4 && 0x90 ≤ b1)
                   then 4 else 0)
                else 0

/-- Replace each invalid byte by U+FFFD (what both directions of encoding/json do). Go standard
library (encoding/json, unicode/utf8), through which all configurations, results and cache entries
go, e.g. libcni/conf.go:392-417 `InjectConf`, libcni/api.go:259-297 `CNIConfig.cacheAdd`,
pkg/invoke/exec.go:121-137 `ExecPluginWithResult`. -/
def sanitizeF : Nat → Bytes → Bytes
  | _, [] => []
  | 0, _ => []
  | n + 1, b :: r =>
    match runeLen (b :: r) with
    | 0 => 0xEF :: 0xBF :: 0xBD :: sanitizeF n r
    | k => (b :: r).take k ++ sanitizeF n ((b :: r).drop k)

/-- Go standard library (encoding/json, unicode/utf8), through which all configurations, results and
cache entries go, e.g. libcni/conf.go:392-417 `InjectConf`, libcni/api.go:259-297 `CNIConfig.cacheAdd`,
pkg/invoke/exec.go:121-137 `ExecPluginWithResult`. -/
def sanitize (s : Bytes) : Bytes := sanitizeF s.length s

/-- Well-formed UTF-8. Go standard library (encoding/json, unicode/utf8), through which all
configurations, results and cache entries go, e.g. libcni/conf.go:392-417 `InjectConf`,
libcni/api.go:259-297 `CNIConfig.cacheAdd`, pkg/invoke/exec.go:121-137 `ExecPluginWithResult`. -/
def isUtf8F : Nat → Bytes → Bool
  | _, [] => true
  | 0, _ => false
  | n + 1, b :: r =>
    match runeLen (b :: r) with
    | 0 => false
    | k => isUtf8F n ((b :: r).drop k)

/-- Go standard library (encoding/json, unicode/utf8), through which all configurations, results and
cache entries go, e.g. libcni/conf.go:392-417 `InjectConf`, libcni/api.go:259-297 `CNIConfig.cacheAdd`,
pkg/invoke/exec.go:121-137 `ExecPluginWithResult`. -/
def isUtf8 (s : Bytes) : Bool := isUtf8F s.length s

/-- UTF-8 encoding of a code point (used for `\uXXXX` escapes; surrogates never reach it). Go
standard library (encoding/json, unicode/utf8), through which all configurations, results and cache
entries go, e.g. libcni/conf.go:392-417 `InjectConf`, libcni/api.go:259-297 `CNIConfig.cacheAdd`,
pkg/invoke/exec.go:121-137 `ExecPluginWithResult`. -/
def encodeRune (n : Nat) : Bytes :=
  if n < 0x80 then [UInt8.ofNat n]
  else if n < 0x800 then [UInt8.ofNat (0xC0 + n / 64), UInt8.ofNat (0x80 + n % 64)]
  else if n < 0x10000 then
    [UInt8.ofNat (0xE0 + n / 4096), UInt8.ofNat (0x80 + n / 64 % 64), UInt8.ofNat (0x80 + n % 64)]
  else
    [UInt8.ofNat (0xF0 + n / 262144), UInt8.ofNat (0x80 + n / 4096 % 64),
     UInt8.ofNat (0x80 + n / 64 % 64), UInt8.ofNat (0x80 + n % 64)]

/-! ### strings -/

/-- Go standard library (encoding/json, unicode/utf8), through which all configurations, results and
cache entries go, e.g. libcni/conf.go:392-417 `InjectConf`, libcni/api.go:259-297 `CNIConfig.cacheAdd`,
pkg/invoke/exec.go:121-137 `ExecPluginWithResult`. -/
def hexVal (c : UInt8) : Option Nat :=
  if isDigit c then some (c.toNat - 48)
  else if 97 ≤ c && c ≤ 102 then some (c.toNat - 87)
  else if 65 ≤ c && c ≤ 70 then some (c.toNat - 55)
  else none

/-- Four hex digits. Go standard library (encoding/json, unicode/utf8), through which all
configurations, results and cache entries go, e.g. libcni/conf.go:392-417 `InjectConf`,
libcni/api.go:259-297 `CNIConfig.cacheAdd`, pkg/invoke/exec.go:121-137 `ExecPluginWithResult`. -/
def getu4 : Bytes → Option (Nat × Bytes)
  | a :: b :: c :: d :: r =>
    match hexVal a, hexVal b, hexVal c, hexVal d with
    | some x, some y, some z, some w => some (((x * 16 + y) * 16 + z) * 16 + w, r)
    | _, _, _, _ => none
  | _ => none

/-- Go standard library (encoding/json, unicode/utf8), through which all configurations, results and
cache entries go, e.g. libcni/conf.go:392-417 `InjectConf`, libcni/api.go:259-297 `CNIConfig.cacheAdd`,
pkg/invoke/exec.go:121-137 `ExecPluginWithResult`. -/
def replacement : Bytes := [0xEF, 0xBF, 0xBD]

/-- An escape sequence, after the backslash. Go standard library (encoding/json, unicode/utf8),
through which all configurations, results and cache entries go, e.g.
libcni/conf.go:392-417 `InjectConf`, libcni/api.go:259-297 `CNIConfig.cacheAdd`, pkg/invoke/exec.go:121-137 `ExecPluginWithResult`. -/
def unesc : Bytes → Option (Bytes × Bytes)
  | [] => none
  | c :: r =>
    if c = 0x22 then some ([0x22], r)
    else if c = 0x5c then some ([0x5c], r)
    else if c = 0x2f then some ([0x2f], r)
    else if c = 0x62 then some ([0x08], r)
    else if c = 0x66 then some ([0x0c], r)
    else if c = 0x6e then some ([0x0a], r)
    else if c = 0x72 then some ([0x0d], r)
    else if c = 0x74 then some ([0x09], r)
    else if c = 0x75 then
      match getu4 r with
      | none => none
      | some (v, r1) =>
        if 0xD800 ≤ v && v < 0xE000 then
          match r1 with
          | x :: y :: r2 =>
            if x = 0x5c && y = 0x75 then
              match getu4 r2 with
              | some (w, r3) =>
                if v < 0xDC00 && 0xDC00 ≤ w && w < 0xE000 then
                  some (encodeRune (0x10000 + (v - 0xD800) * 1024 + (w - 0xDC00)), r3)
                else some (replacement, r1)
              | none => some (replacement, r1)
            else some (replacement, r1)
          | _ => some (replacement, r1)
        else some (encodeRune v, r1)
    else none

/-- Body of a string literal up to and including the closing quote, escapes resolved. Go standard
library (encoding/json, unicode/utf8), through which all configurations, results and cache entries
go, e.g. libcni/conf.go:392-417 `InjectConf`, libcni/api.go:259-297 `CNIConfig.cacheAdd`,
pkg/invoke/exec.go:121-137 `ExecPluginWithResult`. -/
def parseStrF : Nat → Bytes → Option (Bytes × Bytes)
  | _, [] => none
  | 0, _ => none
  | n + 1, c :: r =>
    if c = 0x22 then some ([], r)
    else if c = 0x5c then
      match unesc r with
      | none => none
      | some (out, r1) => (parseStrF n r1).map fun p => (out ++ p.1, p.2)
    else if c < 0x20 then none
    else (parseStrF n r).map fun p => (c :: p.1, p.2)

/-- A string literal after its opening quote. Invalid UTF-8 is replaced after unescaping, which is
the same as during unescaping because an escape never yields a continuation byte first. Go standard
library (encoding/json, unicode/utf8), through which all configurations, results and cache entries
go, e.g. libcni/conf.go:392-417 `InjectConf`, libcni/api.go:259-297 `CNIConfig.cacheAdd`,
pkg/invoke/exec.go:121-137 `ExecPluginWithResult`. -/
def parseStr (s : Bytes) : Option (Bytes × Bytes) :=
  (parseStrF s.length s).map fun p => (sanitize p.1, p.2)

/-- Go standard library (encoding/json, unicode/utf8), through which all configurations, results and
cache entries go, e.g. libcni/conf.go:392-417 `InjectConf`, libcni/api.go:259-297 `CNIConfig.cacheAdd`,
pkg/invoke/exec.go:121-137 `ExecPluginWithResult`. -/
def hexDigit (n : Nat) : UInt8 := if n < 10 then UInt8.ofNat (48 + n) else UInt8.ofNat (87 + n)

/-- `json.Marshal` escaping with HTML escaping on. Simplification: U+2028/2029 and U+FFFD for
invalid input are printed raw instead of as `\u` escapes (same string after decoding). Go standard
library (encoding/json, unicode/utf8), through which all configurations, results and cache entries
go, e.g. libcni/conf.go:392-417 `InjectConf`, libcni/api.go:259-297 `CNIConfig.cacheAdd`,
pkg/invoke/exec.go:121-137 `ExecPluginWithResult`. -/
def escByte (c : UInt8) : Bytes :=
  if c = 0x22 then [0x5c, 0x22]
  else if c = 0x5c then [0x5c, 0x5c]
  else if c = 0x08 then [0x5c, 0x62]
  else if c = 0x0c then [0x5c, 0x66]
  else if c = 0x0a then [0x5c, 0x6e]
  else if c = 0x0d then [0x5c, 0x72]
  else if c = 0x09 then [0x5c, 0x74]
  else if c < 0x20 || c = 0x3c || c = 0x3e || c = 0x26 then
    [0x5c, 0x75, 0x30, 0x30, hexDigit (c.toNat / 16), hexDigit (c.toNat % 16)]
  else [c]

/-- Go standard library (encoding/json, unicode/utf8), through which all configurations, results and
cache entries go, e.g. libcni/conf.go:392-417 `InjectConf`, libcni/api.go:259-297 `CNIConfig.cacheAdd`,
pkg/invoke/exec.go:121-137 `ExecPluginWithResult`. -/
def escape (s : Bytes) : Bytes := s.flatMap escByte

/-- Go standard library (encoding/json, unicode/utf8), through which all configurations, results and
cache entries go, e.g. libcni/conf.go:392-417 `InjectConf`, libcni/api.go:259-297 `CNIConfig.cacheAdd`,
pkg/invoke/exec.go:121-137 `ExecPluginWithResult`. -/
def printStr (s : Bytes) : Bytes := 0x22 :: (escape (sanitize s) ++ [0x22])

/-! ### numbers -/

/-- The parts of a JSON number literal; `ex` is the raw exponent text including `e`/`E` and sign. Go
standard library (encoding/json, unicode/utf8), through which all configurations, results and cache
entries go, e.g. libcni/conf.go:392-417 `InjectConf`, libcni/api.go:259-297 `CNIConfig.cacheAdd`,
pkg/invoke/exec.go:121-137 `ExecPluginWithResult`. -/
structure NumParts where
  neg : Bool
  ip : Bytes
  fp : Bytes
  ex : Bytes
  deriving DecidableEq, Repr

/-- The literal the parts came from. Go standard library (encoding/json, unicode/utf8), through
which all configurations, results and cache entries go, e.g. libcni/conf.go:392-417 `InjectConf`,
libcni/api.go:259-297 `CNIConfig.cacheAdd`, pkg/invoke/exec.go:121-137 `ExecPluginWithResult`. -/
def NumParts.lit (p : NumParts) : Bytes :=
  (if p.neg then [45] else []) ++ p.ip ++ (if p.fp = [] then [] else 46 :: p.fp) ++ p.ex

/-- Go standard library (encoding/json, unicode/utf8), through which all configurations, results and
cache entries go, e.g. libcni/conf.go:392-417 `InjectConf`, libcni/api.go:259-297 `CNIConfig.cacheAdd`,
pkg/invoke/exec.go:121-137 `ExecPluginWithResult`. -/
def scanExp : Bytes → Option (Bytes × Bytes)
  | [] => some ([], [])
  | c :: r =>
    if c = 101 || c = 69 then
      match r with
      | [] => none
      | d :: r1 =>
        if d = 43 || d = 45 then
          (let ds := r1.takeWhile isDigit
           if ds = [] then none else some (c :: d :: ds, r1.dropWhile isDigit))
        else
          (let ds := r.takeWhile isDigit
           if ds = [] then none else some (c :: ds, r.dropWhile isDigit))
    else some ([], c :: r)

/-- Go standard library (encoding/json, unicode/utf8), through which all configurations, results and
cache entries go, e.g. libcni/conf.go:392-417 `InjectConf`, libcni/api.go:259-297 `CNIConfig.cacheAdd`,
pkg/invoke/exec.go:121-137 `ExecPluginWithResult`. -/
def scanFrac : Bytes → Option (Bytes × Bytes)
  | [] => some ([], [])
  | c :: r =>
    if c = 46 then
      (let ds := r.takeWhile isDigit
       if ds = [] then none else some (ds, r.dropWhile isDigit))
    else some ([], c :: r)

/-- Go standard library (encoding/json, unicode/utf8), through which all configurations, results and
cache entries go, e.g. libcni/conf.go:392-417 `InjectConf`, libcni/api.go:259-297 `CNIConfig.cacheAdd`,
pkg/invoke/exec.go:121-137 `ExecPluginWithResult`. -/
def scanInt : Bytes → Option (Bytes × Bytes)
  | [] => none
  | c :: r =>
    if c = 48 then some ([48], r)
    else if isDigit c then some ((c :: r).takeWhile isDigit, (c :: r).dropWhile isDigit)
    else none

/-- Go standard library (encoding/json, unicode/utf8), through which all configurations, results and
cache entries go, e.g. libcni/conf.go:392-417 `InjectConf`, libcni/api.go:259-297 `CNIConfig.cacheAdd`,
pkg/invoke/exec.go:121-137 `ExecPluginWithResult`. -/
def scanAbs (neg : Bool) (s : Bytes) : Option (NumParts × Bytes) :=
  match scanInt s with
  | none => none
  | some (ip, s1) =>
    match scanFrac s1 with
    | none => none
    | some (fp, s2) =>
      match scanExp s2 with
      | none => none
      | some (ex, s3) => some ({ neg, ip, fp, ex }, s3)

/-- Scan a JSON number at the head of the input. Go standard library (encoding/json, unicode/utf8),
through which all configurations, results and cache entries go, e.g.
libcni/conf.go:392-417 `InjectConf`, libcni/api.go:259-297 `CNIConfig.cacheAdd`, pkg/invoke/exec.go:121-137 `ExecPluginWithResult`. -/
def scanNum : Bytes → Option (NumParts × Bytes)
  | [] => none
  | c :: r => if c = 45 then scanAbs true r else scanAbs false (c :: r)

/-- A complete, syntactically valid JSON number literal. Go standard library (encoding/json,
unicode/utf8), through which all configurations, results and cache entries go, e.g.
libcni/conf.go:392-417 `InjectConf`, libcni/api.go:259-297 `CNIConfig.cacheAdd`,
pkg/invoke/exec.go:121-137 `ExecPluginWithResult`. -/
def numValid (lit : Bytes) : Bool :=
  match scanNum lit with
  | some (_, []) => true
  | _ => false

/-! ### documents -/

/-- Go standard library (encoding/json, unicode/utf8), through which all configurations, results and
cache entries go, e.g. libcni/conf.go:392-417 `InjectConf`, libcni/api.go:259-297 `CNIConfig.cacheAdd`,
pkg/invoke/exec.go:121-137 `ExecPluginWithResult`. -/
def isWs (c : UInt8) : Bool := c = 32 || c = 9 || c = 10 || c = 13
/-- Go standard library (encoding/json, unicode/utf8), through which all configurations, results and
cache entries go, e.g. libcni/conf.go:392-417 `InjectConf`, libcni/api.go:259-297 `CNIConfig.cacheAdd`,
pkg/invoke/exec.go:121-137 `ExecPluginWithResult`. -/
def skipWs (s : Bytes) : Bytes := s.dropWhile isWs

/-- Strip a literal word such as `null`. Go standard library (encoding/json, unicode/utf8), through
which all configurations, results and cache entries go, e.g. libcni/conf.go:392-417 `InjectConf`,
libcni/api.go:259-297 `CNIConfig.cacheAdd`, pkg/invoke/exec.go:121-137 `ExecPluginWithResult`. -/
def stripWord (w s : Bytes) : Option Bytes :=
  if hasPrefix s w then some (s.drop w.length) else none

mutual
/-- A JSON value. The first argument is fuel; `parse` supplies the input length, which always
suffices because every level of recursion consumes at least one byte. Simplification: Go's nesting
limit of 10000 levels is not modelled. Go standard library (encoding/json, unicode/utf8), through
which all configurations, results and cache entries go, e.g. libcni/conf.go:392-417 `InjectConf`,
libcni/api.go:259-297 `CNIConfig.cacheAdd`, pkg/invoke/exec.go:121-137 `ExecPluginWithResult`. -/
def parseVal : Nat → Bytes → Option (Json × Bytes)
  | 0, _ => none
  | n + 1, s =>
    match skipWs s with
    | [] => none
    | c :: r =>
      if c = 0x22 then (parseStr r).map fun p => (.str p.1, p.2)
      else if c = 0x7b then
        match skipWs r with
        | [] => none
        | d :: r1 =>
          if d = 0x7d then some (.obj [], r1)
          else match parseMember n (d :: r1) with
            | none => none
            | some (m, r2) => (parseMTail n r2).map fun p => (.obj (m :: p.1), p.2)
      else if c = 0x5b then
        match skipWs r with
        | [] => none
        | d :: r1 =>
          if d = 0x5d then some (.arr [], r1)
          else match parseVal n (d :: r1) with
            | none => none
            | some (j, r2) => (parseTail n r2).map fun p => (.arr (j :: p.1), p.2)
      else if c = 0x6e then (stripWord b!"null" (c :: r)).map fun r => (.null, r)
      else if c = 0x74 then (stripWord b!"true" (c :: r)).map fun r => (.bool true, r)
      else if c = 0x66 then (stripWord b!"false" (c :: r)).map fun r => (.bool false, r)
      else (scanNum (c :: r)).map fun p => (.num p.1.lit, p.2)

/-- Remaining array elements, up to and including `]`. Go standard library (encoding/json,
unicode/utf8), through which all configurations, results and cache entries go, e.g.
libcni/conf.go:392-417 `InjectConf`, libcni/api.go:259-297 `CNIConfig.cacheAdd`,
pkg/invoke/exec.go:121-137 `ExecPluginWithResult`. -/
def parseTail : Nat → Bytes → Option (List Json × Bytes)
  | 0, _ => none
  | n + 1, s =>
    match skipWs s with
    | [] => none
    | c :: r =>
      if c = 0x5d then some ([], r)
      else if c = 0x2c then
        match parseVal n r with
        | none => none
        | some (j, r1) => (parseTail n r1).map fun p => (j :: p.1, p.2)
      else none

/-- One `"key": value` member. Go standard library (encoding/json, unicode/utf8), through which all
configurations, results and cache entries go, e.g. libcni/conf.go:392-417 `InjectConf`,
libcni/api.go:259-297 `CNIConfig.cacheAdd`, pkg/invoke/exec.go:121-137 `ExecPluginWithResult`. -/
def parseMember : Nat → Bytes → Option ((Bytes × Json) × Bytes)
  | 0, _ => none
  | n + 1, s =>
    match skipWs s with
    | [] => none
    | c :: r =>
      if c = 0x22 then
        match parseStr r with
        | none => none
        | some (k, r1) =>
          match skipWs r1 with
          | [] => none
          | d :: r2 =>
            if d = 0x3a then (parseVal n r2).map fun p => ((k, p.1), p.2)
            else none
      else none

/-- Remaining object members, up to and including `}`. Go standard library (encoding/json,
unicode/utf8), through which all configurations, results and cache entries go, e.g.
libcni/conf.go:392-417 `InjectConf`, libcni/api.go:259-297 `CNIConfig.cacheAdd`,
pkg/invoke/exec.go:121-137 `ExecPluginWithResult`. -/
def parseMTail : Nat → Bytes → Option (List (Bytes × Json) × Bytes)
  | 0, _ => none
  | n + 1, s =>
    match skipWs s with
    | [] => none
    | c :: r =>
      if c = 0x7d then some ([], r)
      else if c = 0x2c then
        match parseMember n r with
        | none => none
        | some (m, r1) => (parseMTail n r1).map fun p => (m :: p.1, p.2)
      else none
end

/-- Syntax check and parse of a whole document (`json.Unmarshal` checks the whole input first). Go
standard library (encoding/json, unicode/utf8), through which all configurations, results and cache
entries go, e.g. libcni/conf.go:392-417 `InjectConf`, libcni/api.go:259-297 `CNIConfig.cacheAdd`,
pkg/invoke/exec.go:121-137 `ExecPluginWithResult`. -/
def Json.parse (s : Bytes) : Option Json :=
  match parseVal (s.length + 1) s with
  | some (j, r) => if skipWs r = [] then some j else none
  | none => none

mutual
/-- `json.Marshal`: compact form. Go standard library (encoding/json, unicode/utf8), through which
all configurations, results and cache entries go, e.g. libcni/conf.go:392-417 `InjectConf`,
libcni/api.go:259-297 `CNIConfig.cacheAdd`, pkg/invoke/exec.go:121-137 `ExecPluginWithResult`. -/
def Json.print : Json → Bytes
  | .null => b!"null"
  | .bool true => b!"true"
  | .bool false => b!"false"
  | .num l => l
  | .str s => printStr s
  | .arr l => 0x5b :: Json.printArr l
  | .obj l => 0x7b :: Json.printObj l
/-- Go standard library (encoding/json, unicode/utf8), through which all configurations, results and
cache entries go, e.g. libcni/conf.go:392-417 `InjectConf`, libcni/api.go:259-297 `CNIConfig.cacheAdd`,
pkg/invoke/exec.go:121-137 `ExecPluginWithResult`. -/
def Json.printArr : List Json → Bytes
  | [] => [0x5d]
  | j :: l => Json.print j ++ Json.printTail l
/-- Go standard library (encoding/json, unicode/utf8), through which all configurations, results and
cache entries go, e.g. libcni/conf.go:392-417 `InjectConf`, libcni/api.go:259-297 `CNIConfig.cacheAdd`,
pkg/invoke/exec.go:121-137 `ExecPluginWithResult`. -/
def Json.printTail : List Json → Bytes
  | [] => [0x5d]
  | j :: l => 0x2c :: (Json.print j ++ Json.printTail l)
/-- Go standard library (encoding/json, unicode/utf8), through which all configurations, results and
cache entries go, e.g. libcni/conf.go:392-417 `InjectConf`, libcni/api.go:259-297 `CNIConfig.cacheAdd`,
pkg/invoke/exec.go:121-137 `ExecPluginWithResult`. -/
def Json.printObj : List (Bytes × Json) → Bytes
  | [] => [0x7d]
  | m :: l => printStr m.1 ++ 0x3a :: (Json.print m.2 ++ Json.printMTail l)
/-- Go standard library (encoding/json, unicode/utf8), through which all configurations, results and
cache entries go, e.g. libcni/conf.go:392-417 `InjectConf`, libcni/api.go:259-297 `CNIConfig.cacheAdd`,
pkg/invoke/exec.go:121-137 `ExecPluginWithResult`. -/
def Json.printMTail : List (Bytes × Json) → Bytes
  | [] => [0x7d]
  | m :: l => 0x2c :: (printStr m.1 ++ 0x3a :: (Json.print m.2 ++ Json.printMTail l))
end

mutual
/-- Printable documents: strings and keys are UTF-8, number literals are valid. Proof device: models
no code. -/
def Json.WF : Json → Prop
  | .null => True
  | .bool _ => True
  | .num l => numValid l = true
  | .str s => isUtf8 s = true
  | .arr l => Json.WFList l
  | .obj l => Json.WFMembers l
/-- Proof device: models no code. -/
def Json.WFList : List Json → Prop
  | [] => True
  | j :: l => Json.WF j ∧ Json.WFList l
/-- Proof device: models no code. -/
def Json.WFMembers : List (Bytes × Json) → Prop
  | [] => True
  | m :: l => (isUtf8 m.1 = true ∧ Json.WF m.2) ∧ Json.WFMembers l
end

end Verif
