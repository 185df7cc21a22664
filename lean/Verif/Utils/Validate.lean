/- pkg/utils: validation of container IDs, network names and interface names. -/
import Verif.Base.Err
import Verif.Json.Json

namespace Verif

/-- A character of the class `[a-zA-Z0-9_.\-]` (pkg/utils/utils.go:26-33 `cniValidNameChars`). -/
def isNameChar (c : UInt8) : Bool := isAlnum c || c = 95 || c = 46 || c = 45

/-- pkg/utils/utils.go:35 `cniReg` matching: `^[a-zA-Z0-9][a-zA-Z0-9_.\-]*$`. Byte-wise, which is the same as
rune-wise because the classes are ASCII and no byte of a longer rune is ASCII. -/
def cniReg : Bytes → Bool
  | [] => false
  | c :: r => isAlnum c && r.all isNameChar

/-- pkg/utils/utils.go:38-46 `ValidateContainerID`; `none` is nil (valid). -/
def validateContainerID (s : Bytes) : Option CniErr :=
  if s = [] then some { code := 3, msg := b!"missing containerID" }
  else if !cniReg s then some { code := 4, msg := b!"invalid characters in containerID", details := s }
  else none

/-- pkg/utils/utils.go:49-57 `ValidateNetworkName`. -/
def validateNetworkName (s : Bytes) : Option CniErr :=
  if s = [] then some { code := 7, msg := b!"missing network name:" }
  else if !cniReg s then some { code := 7, msg := b!"invalid characters found in network name", details := s }
  else none

/-- Value of the UTF-8 encoded rune of length `k` at the head. Used by
pkg/utils/utils.go:65-82 `ValidateInterfaceName`. -/
def runeVal : Nat → Bytes → Nat
  | 1, a :: _ => a.toNat
  | 2, a :: b :: _ => (a.toNat - 0xC0) * 64 + (b.toNat - 0x80)
  | 3, a :: b :: c :: _ => (a.toNat - 0xE0) * 4096 + (b.toNat - 0x80) * 64 + (c.toNat - 0x80)
  | 4, a :: b :: c :: d :: _ =>
    (a.toNat - 0xF0) * 262144 + (b.toNat - 0x80) * 4096 + (c.toNat - 0x80) * 64 + (d.toNat - 0x80)
  | _, _ => 0xFFFD

/-- `bytes.Runes`: the decoded runes, U+FFFD for each invalid byte. Fuel: the length. Used by
pkg/utils/utils.go:65-82 `ValidateInterfaceName`. -/
def runesF : Nat → Bytes → List Nat
  | _, [] => []
  | 0, _ => []
  | n + 1, b :: r =>
    match runeLen (b :: r) with
    | 0 => 0xFFFD :: runesF n r
    | k => runeVal k (b :: r) :: runesF n ((b :: r).drop k)

/-- `bytes.Runes`, used by pkg/utils/utils.go:65-82 `ValidateInterfaceName`. -/
def runes (s : Bytes) : List Nat := runesF s.length s

/-- `unicode.IsSpace`. Used by pkg/utils/utils.go:65-82 `ValidateInterfaceName`. -/
def isSpaceRune (r : Nat) : Bool :=
  r ∈ [0x09, 0x0A, 0x0B, 0x0C, 0x0D, 0x20, 0x85, 0xA0, 0x1680, 0x2028, 0x2029, 0x202F, 0x205F, 0x3000]
    || (0x2000 ≤ r && r ≤ 0x200A)

/-- pkg/utils/utils.go:65-82 `ValidateInterfaceName`. -/
def validateInterfaceName (s : Bytes) : Option CniErr :=
  if s.length = 0 then some { code := 4, msg := b!"interface name is empty" }
  else if s.length > 15 then
    some { code := 4, msg := b!"interface name is too long",
           details := b!"interface name should be less than 16 characters" }
  else if s = b!"." ∨ s = b!".." then some { code := 4, msg := b!"interface name is . or .." }
  else if (runes s).any (fun r => r = 47 || r = 58 || isSpaceRune r) then
    some { code := 4, msg := b!"interface name contains / or : or whitespace characters" }
  else none

end Verif
