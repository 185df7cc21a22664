/- The document of a cache entry. -/
import Verif.Spec.ConfDoc
import Verif.Spec.Base64
import Verif.Spec.Repair
import Verif.Libcni.Cache

namespace Verif.Spec

/-! ### as it is read -/

/-- A byte as a number. -/
inductive ByteElem : Json → UInt8 → Prop
  | null : ByteElem .null 0
  | num {t : Bytes} {b : UInt8} (h : Places DecDigit 10 t b.toNat) : ByteElem (.num t) b

/-- Bytes: a base64 text (line breaks do not count) or the list of their numbers; nothing and `null` are no bytes. -/
inductive BytesVal : Option Json → Bytes → Prop
  | absent : BytesVal none []
  | null : BytesVal (some .null) []
  | text {t b : Bytes} (h : Base64 False (t.filter fun c => c ≠ 10 ∧ c ≠ 13) b) : BytesVal (some (.str t)) b
  | list {l : List Json} {b : Bytes} (h : Each ByteElem l b) : BytesVal (some (.arr l)) b

/-- An argument: its name and its value, the first two of a list; what is missing is empty. -/
inductive ArgElem : Json → Bytes × Bytes → Prop
  | null : ArgElem .null ([], [])
  | none : ArgElem (.arr []) ([], [])
  | name {j : Json} {k : Bytes} (h : TextElem j k) : ArgElem (.arr [j]) (k, [])
  | pair {j j' : Json} {k v : Bytes} (l : List Json) (hk : TextElem j k) (hv : TextElem j' v) : ArgElem (.arr (j :: j' :: l)) (k, v)

/-- Arguments, or none: nothing and `null`. -/
inductive ArgsVal : Option Json → Option (List (Bytes × Bytes)) → Prop
  | absent : ArgsVal none none
  | null : ArgsVal (some .null) none
  | list {l : List Json} {a : List (Bytes × Bytes)} (h : Each ArgElem l a) : ArgsVal (some (.arr l)) (some a)

/-- A map that is empty if there is none. -/
def MapVal (o : Option Json) (m : GoMap Json) : Prop := AnyVal o (some m) ∨ (AnyVal o none ∧ m = [])

/-- A cache entry. -/
structure IsSaved (ms : List (Bytes × Json)) (i : CachedInfo) : Prop where
  kind : Field ms b!"kind" TextVal i.kind
  containerID : Field ms b!"containerId" TextVal i.containerID
  config : Field ms b!"config" BytesVal i.config
  ifName : Field ms b!"ifName" TextVal i.ifName
  networkName : Field ms b!"networkName" TextVal i.networkName
  netNS : Field ms b!"netns" TextVal i.netNS
  cniArgs : Field ms b!"cniArgs" ArgsVal i.cniArgs
  capArgs : Field ms b!"capabilityArgs" MapVal i.capArgs
  result : Field ms b!"result" AnyVal i.rawResult

/-- The result a document says, in the version it names itself (none counts as 0.1.0). -/
def OwnResult (j : Json) (r : Result) : Prop :=
  ∃ v, Record (fun ms s => Field ms b!"cniVersion" TextVal s) j v ∧ SaysResult (if v = [] then b!"0.1.0" else v) j r

/-- A document is a cache entry. -/
def EntryOfKind (j : Json) (i : CachedInfo) : Prop := Record IsSaved j i ∧ i.kind = b!"cniCacheV1"

/-- The result in a file with this document: the result of the entry, or else the document itself (the older format). -/
def ResultIn (j : Json) (r : Result) : Prop :=
  (∃ i m, EntryOfKind j i ∧ i.rawResult = some m ∧ OwnResult (.obj m) r) ∨ (∃ i, EntryOfKind j i ∧ i.rawResult = none ∧ OwnResult .null r) ∨
    ((¬ ∃ i, EntryOfKind j i) ∧ OwnResult j r)

/-! ### as it is written -/

/-- An argument as it is written. -/
def ArgWritten (j : Json) (a : Bytes × Bytes) : Prop := ∃ k v, Repaired a.1 k ∧ Repaired a.2 v ∧ j = .arr [.str k, .str v]

/-- A member that is left out if it is empty. -/
def MaybeMember (ms : List (Bytes × Json)) (name : Bytes) (empty : Prop) (written : Json → Prop) : Prop :=
  (empty ∧ ms = []) ∨ (¬ empty ∧ ∃ j, written j ∧ ms = [(name, j)])

/-- The entry of an attachment of the network `name`, with its configuration and a map for its result: the members and their order. -/
def Written (name config : Bytes) (rt : RuntimeConf) (result : GoMap Json) (j : Json) : Prop :=
  ∃ cid conf ifn net ns args caps res, Repaired rt.containerID cid ∧ Base64 True conf config ∧ Repaired rt.ifName ifn ∧ Repaired name net ∧
    MaybeMember ns b!"netns" (rt.netNS = []) (fun j => ∃ s, Repaired rt.netNS s ∧ j = .str s) ∧
    MaybeMember args b!"cniArgs" (rt.args = []) (fun j => ∃ l, Each ArgWritten l rt.args ∧ j = .arr l) ∧
    MaybeMember caps b!"capabilityArgs" (rt.capArgs = []) (fun j => ∃ l, RepairedDoc (.members rt.capArgs) (.members l) ∧ j = .obj l) ∧
    MaybeMember res b!"result" (result = []) (fun j => ∃ l, RepairedDoc (.members result) (.members l) ∧ j = .obj l) ∧
    j = .obj ([(b!"kind", .str b!"cniCacheV1"), (b!"containerId", .str cid), (b!"config", .str conf), (b!"ifName", .str ifn),
      (b!"networkName", .str net)] ++ ns ++ args ++ caps ++ res)

/-- The map for a result: its document, read as an object. Without a result it is empty. -/
def ResultMap : Option Result → GoMap Json → Prop
  | none, m => m = []
  | some r, m => ∃ doc doc', r.json = some doc ∧ RepairedDoc (.value doc) (.value doc') ∧ MapVal (some doc') m

end Verif.Spec
