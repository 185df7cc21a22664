/- C84: documents are read by the grammar of JSON. -/
import Verif.Json.GrammarDoc
import Verif.Json.Any
import Verif.Libcni.Conf
import Verif.Libcni.Cache
import Verif.Invoke.Fixup
import Verif.Cnitool.Main
import Verif.Props.Panic

namespace Verif
open Spec

/-- C84: a text is read as a value exactly if the grammar says that it is a text of that value. -/
theorem c84_syntax (t : Bytes) (j : Json) : Json.parse t = some j ↔ JsonText t j := parse_iff

/-- C84: the grammar gives a text at most one value. -/
theorem c84_unambiguous (t : Bytes) (j j' : Json) (h : JsonText t j) (h' : JsonText t j') : j = j' := by
  rw [← c84_syntax] at h h'
  rw [h] at h'
  exact Option.some.inj h'

/-- C84: what is written again, in one line (cache entries, configurations given to plugins) or indented (results on the standard output), is again
a text of the value that was read. -/
theorem c84_reprint (t : Bytes) (j : Json) (h : JsonText t j) : JsonText j.print j ∧ JsonText (j.printIndent 0) j := by
  rw [← c84_syntax] at h
  have hw := Json.parse_WF h
  exact ⟨(c84_syntax _ _).1 (Json.parse_print j hw), (c84_syntax _ _).1 (Json.parse_printIndent j hw 0)⟩

theorem parse_none {t : Bytes} (h : ∀ j, ¬ JsonText t j) : Json.parse t = none := by
  cases hp : Json.parse t with
  | none => rfl
  | some j => exact absurd ((c84_syntax t j).1 hp) (h j)

/-- C84: a text that is no JSON document is refused with an error wherever one is expected: as a plugin's configuration, as a network
configuration, when values are injected into a configuration, when a configuration is wrapped into a list, as a configuration whose version is
asked for, as a plugin's answer to VERSION, as a result (of a given version, of the version it states, or printed by a plugin), as a cache entry, and as the
capability arguments of cnitool. -/
theorem c84_refused (t : Bytes) (h : ∀ j, ¬ JsonText t j) :
    (∃ g, pluginConfFromBytes t = .err g) ∧ (∀ sort, ∃ g, networkConfFromBytesWith sort t = .err g) ∧
    (∀ orig kvs, orig.bytes = t → ∃ g, injectConf orig kvs = .err g) ∧ (∀ orig, orig.bytes = t → ∃ g, confListFromConf orig = .err g) ∧
    (∃ g, decodeVersion t = .err g) ∧ (∃ g, decodePluginInfo t = .err g) ∧ (∀ version, ∃ g, create version t = .err g) ∧
    (∃ g, createFromBytes t = .err g) ∧ readCachedInfo t = none ∧
    (∀ conf, ∃ g, resultOfOutput conf t = .err g) ∧
    (∀ tool : ToolProc, getenv tool.environ b!"CAP_ARGS" = t → t ≠ [] → ∃ g, tool.capArgs = .err g) := by
  have hp := parse_none h
  refine ⟨?_, ?_, ?_, ?_, ?_, ?_, ?_, ?_, ?_, ?_, ?_⟩
  · unfold pluginConfFromBytes; rw [hp]; exact ⟨_, rfl⟩
  · intro sort; unfold networkConfFromBytesWith; rw [hp]; exact ⟨_, rfl⟩
  · intro orig kvs ho; unfold injectConf; rw [ho, hp]; exact ⟨_, rfl⟩
  · intro orig ho; unfold confListFromConf; rw [ho, hp]; exact ⟨_, rfl⟩
  · unfold decodeVersion; rw [hp]; exact ⟨_, rfl⟩
  · unfold decodePluginInfo; rw [hp]; exact ⟨_, rfl⟩
  · intro v; unfold create; rw [hp]; exact ⟨_, rfl⟩
  · unfold createFromBytes decodeVersion; rw [hp]; exact ⟨_, rfl⟩
  · unfold readCachedInfo; rw [hp]; rfl
  · intro conf
    unfold resultOfOutput fixupResultVersion
    cases hd : decodeVersion conf with
    | ok v => rw [hp]; exact ⟨_, rfl⟩
    | err g => exact ⟨g, rfl⟩
    | panic => exact absurd hd (decodeVersion_ne_panic conf)
  · intro tool he hne; unfold ToolProc.capArgs unmarshalMap; rw [he, hp, if_neg hne]; exact ⟨_, rfl⟩

theorem finishList_bytes {base L : NetConfList} {m : GoMap Json} (u : Bytes) (h : finishList base m = .ok L) :
    finishList { base with bytes := u } m = .ok { L with bytes := u } := by
  unfold finishList at h ⊢
  split at h
  · rename_i hg
    simp only
    split at h
    · cases h
    · rename_i hb
      cases h
      simp only [if_neg hb]
  · rename_i l hg
    simp only
    split at h
    · cases h
    · rename_i hl
      simp only [if_neg hl]
      cases hr : readPlugins l with
      | ok ps => rw [hr] at h; cases h; rfl
      | err e => rw [hr] at h; cases h
      | panic => rw [hr] at h; cases h
  · cases h

/-- C84: only the value counts, not how it is spelled (white space, escapes): where one text of a value is read, every other one is read
alike, and only the text that is kept with a configuration differs. -/
theorem c84_spelling (t u : Bytes) (j : Json) (ht : JsonText t j) (hu : JsonText u j) :
    (∀ c, pluginConfFromBytes t = .ok c → pluginConfFromBytes u = .ok { c with bytes := u }) ∧
    (∀ sort L, networkConfFromBytesWith sort t = .ok L → networkConfFromBytesWith sort u = .ok { L with bytes := u }) ∧
    (∀ net kvs, injectConf ⟨net, t⟩ kvs = injectConf ⟨net, u⟩ kvs) ∧ (∀ net, confListFromConf ⟨net, t⟩ = confListFromConf ⟨net, u⟩) ∧
    decodeVersion t = decodeVersion u ∧ decodePluginInfo t = decodePluginInfo u ∧ (∀ version, create version t = create version u) ∧
    createFromBytes t = createFromBytes u ∧ readCachedInfo t = readCachedInfo u ∧
    (∀ conf, resultOfOutput conf t = resultOfOutput conf u) ∧ (∀ out, resultOfOutput t out = resultOfOutput u out) := by
  rw [← c84_syntax] at ht hu
  have hv : decodeVersion t = decodeVersion u := by unfold decodeVersion; rw [ht, hu]
  have hc : ∀ v, create v t = create v u := by intro v; unfold create; rw [ht, hu]
  refine ⟨?_, ?_, ?_, ?_, hv, ?_, hc, ?_, ?_, ?_, ?_⟩
  · intro c h
    unfold pluginConfFromBytes at h ⊢
    rw [ht] at h
    rw [hu]
    simp only at h ⊢
    split at h
    · cases h
    · split at h
      · cases h
      · rename_i hne
        cases h
        simp only [if_neg hne]
  · intro sort L h
    unfold networkConfFromBytesWith at h ⊢
    rw [ht] at h
    rw [hu]
    simp only at h ⊢
    cases hm : rawMap j with
    | none => rw [hm] at h; cases h
    | some m0 =>
    rw [hm] at h
    simp only at h ⊢
    revert h
    cases readName (m0.getD []) with
    | err e => intro h; cases h
    | panic => intro h; cases h
    | ok name =>
    cases readVersion sort (m0.getD []) with
    | err e => intro h; cases h
    | panic => intro h; cases h
    | ok cv =>
    cases readBool (m0.getD []) b!"disableCheck" with
    | err e => intro h; cases h
    | panic => intro h; cases h
    | ok dc =>
    cases readBool (m0.getD []) b!"disableGC" with
    | err e => intro h; cases h
    | panic => intro h; cases h
    | ok dg =>
    cases readBool (m0.getD []) b!"loadOnlyInlinedPlugins" with
    | err e => intro h; cases h
    | panic => intro h; cases h
    | ok lo =>
    exact finishList_bytes u
  · intro net kvs; unfold injectConf; simp only [ht, hu]
  · intro net; unfold confListFromConf; simp only [ht, hu]
  · unfold decodePluginInfo; rw [ht, hu]
  · unfold createFromBytes
    rw [hv]
    cases decodeVersion u with
    | ok v => exact hc v
    | err g => rfl
    | panic => rfl
  · unfold readCachedInfo; rw [ht, hu]
  · intro conf
    unfold resultOfOutput fixupResultVersion
    rw [ht, hu]
    cases decodeVersion conf with
    | err g => rfl
    | panic => rfl
    | ok v =>
    have key : ∀ raw : Option (GoMap Json), Out.bind (match raw with
        | none => .err (.text b!"failed to unmarshal raw result")
        | some m =>
          match GoMap.get? m b!"cniVersion" with
          | some (.str w) =>
            if w ≠ [] then .ok (w, t)
            else .ok (v, (Json.obj (GoMap.insert m b!"cniVersion" (.str v))).print)
          | _ => .ok (v, (Json.obj (GoMap.insert m b!"cniVersion" (.str v))).print)) (fun p => create p.1 p.2) =
        Out.bind (match raw with
        | none => .err (.text b!"failed to unmarshal raw result")
        | some m =>
          match GoMap.get? m b!"cniVersion" with
          | some (.str w) =>
            if w ≠ [] then .ok (w, u)
            else .ok (v, (Json.obj (GoMap.insert m b!"cniVersion" (.str v))).print)
          | _ => .ok (v, (Json.obj (GoMap.insert m b!"cniVersion" (.str v))).print)) (fun p => create p.1 p.2) := by
      intro raw
      cases raw with
      | none => rfl
      | some m =>
      simp only
      cases GoMap.get? m b!"cniVersion" with
      | none => rfl
      | some x =>
      cases x with
      | str w =>
        simp only
        split
        · exact hc w
        · rfl
      | _ => rfl
    exact key _
  · intro out
    unfold resultOfOutput fixupResultVersion
    rw [hv]

/-! ### concrete cases -/

namespace GrammarExample

/-- Test data; models no code. -/
def plain : Bytes := b!"{\"cniVersion\":\"1.0.0\",\"type\":\"a\"}"
/-- Test data; models no code. The same value, spelled in another way. -/
def fancy : Bytes := b!" {\n\t\"cni\\u0056ersion\" : \"1.0\\u002e0\" ,\r\n \"\\u0074ype\":\"a\" } \n"
/-- Test data; models no code. -/
def value : Json := .obj [(b!"cniVersion", .str b!"1.0.0"), (b!"type", .str b!"a")]

example : JsonText plain value ∧ JsonText fancy value ∧ plain ≠ fancy :=
  ⟨(c84_syntax _ _).1 (by decide +kernel), (c84_syntax _ _).1 (by decide +kernel), by decide +kernel⟩

/-- A derivation in the grammar itself. -/
example : JsonText b!" [-0.5e+1, \"\\n\"]" (.arr [.num b!"-0.5e+1", .str [10]]) := by
  have d : ∀ c : UInt8, 48 ≤ c.toNat ∧ c.toNat ≤ 57 → Digits [c] := by
    intro c h x hx
    rw [List.mem_singleton.1 hx]
    exact h
  have hn : NumberText b!"-0.5e+1" := ⟨b!"-", b!"0", b!".5", b!"e+1", rfl, .inr rfl, .inl rfl, .inr ⟨b!"5", rfl, by decide, d 53 (by decide)⟩,
    .inr ⟨101, b!"+", b!"1", rfl, .inl rfl, .inr (.inl rfl), by decide, d 49 (by decide)⟩⟩
  have hs : StringText b!"\"\\n\"" [10] := ⟨b!"\\n", [10], rfl, .simple (by decide) .nil, .char (v := 10) (bs := [10]) (.inl ⟨by decide, rfl⟩) .nil⟩
  have w0 : Ws [] := by intro c hc; cases hc
  have w1 : Ws [32] := by
    intro c hc
    exact .inl (List.mem_singleton.1 hc)
  exact ⟨[32], b!"[-0.5e+1, \"\\n\"]", [], rfl, w1, w0,
    .array (t := b!"-0.5e+1, \"\\n\"")
      (.moreElements (a := []) (b := []) (t := b!"-0.5e+1") (u := b!" \"\\n\"") w0 w0 (.num hn) (.element (a := [32]) (b := []) w1 w0 (.str hs)))⟩

/-- A surrogate pair, half a pair, and bytes that are not UTF-8. -/
example : JsonText b!"[\"\\uD83D\\ude00\", \"\\ud83d!\", \"\\ude00\"]"
      (.arr [.str [0xF0, 0x9F, 0x98, 0x80], .str [0xEF, 0xBF, 0xBD, 33], .str [0xEF, 0xBF, 0xBD]]) ∧
    JsonText [34, 0xC0, 0x80, 34] (.str [0xEF, 0xBF, 0xBD, 0xEF, 0xBF, 0xBD]) :=
  ⟨(c84_syntax _ _).1 (by decide +kernel), (c84_syntax _ _).1 (by decide +kernel)⟩

/-- Texts that are no documents: nothing, two values, a comma at the end, leading zeros, a point without digits, a plus sign, single quotes, a bare
name, a line feed in a string, an unknown escape, a comment, other spellings of the words, an unfinished document. -/
example : ∀ t ∈ [b!"", b!"{} {}", b!"{\"a\":1,}", b!"[1,]", b!"01", b!"1.", b!".5", b!"+1", b!"1e", b!"'a'", b!"{a:1}", b!"\"a\nb\"", b!"\"\\x41\"",
      b!"{} // x", b!"True", b!"nul", b!"NaN", b!"{\"a\":", b!"[1", b!"\"a", b!"-", b!"\"\\u12\""], ∀ j, ¬ JsonText t j := by
  intro t ht j h
  have : Json.parse t = none := by
    clear h j
    revert t
    decide +kernel
  rw [← c84_syntax, this] at h
  cases h

/-- Both spellings are loaded, with equal contents. -/
example : (pluginConfFromBytes plain).toOption.map (·.network.type) = some b!"a" ∧
    (pluginConfFromBytes fancy).toOption.map (·.network.type) = some b!"a" ∧ (decodeVersion fancy).toOption = some b!"1.0.0" := by decide +kernel

end GrammarExample

end Verif
