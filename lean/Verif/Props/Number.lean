/-
C89: numbers are the nearest doubles, everything else is kept; a number too large for a double is refused.
-/
import Verif.Json.DecodedLemmas
import Verif.Props.ByteOrder
import Verif.Props.Deliver
import Verif.Props.Request
import Verif.Props.Progress
import Verif.Spec.Tool

namespace Verif
open Spec

/-- C89: what Go reads a number text as is the double nearest to it, by ties-to-even. -/
theorem c89_nearest (t : Bytes) (f : F64) : parseF64 t = some f ↔ DoubleOf t f.neg f.m f.k := double_iff

/-- C89: a number text is refused exactly if that would be beyond the largest double. -/
theorem c89_too_large (t : Bytes) (ht : NumberText t) : parseF64 t = none ↔ TooLarge t :=
  ⟨fun h => tooLarge_iff.1 ⟨ht, h⟩, fun h => (tooLarge_iff.2 h).2⟩

theorem normNum_double {t t' : Bytes} (h : normNum t = some t') : SameDouble t t' := by
  simp only [normNum, Option.map_eq_some_iff] at h
  obtain ⟨f, hf, rfl⟩ := h
  exact sameDouble_iff.2 ⟨f, hf, parseF64_fmt (parseF64_canon hf)⟩

theorem pairwise_before {l : GoMap Json} : GoMap.Sorted l ↔ l.Pairwise fun x y => ByteBefore x.1 y.1 := by
  rw [sorted_pairwise]
  simp only [lt_iff_before]

theorem mem_lastMember {l : List (Bytes × Json)} {k : Bytes} {a : Json} (h : LastMember l k a) : (k, a) ∈ l := by
  obtain ⟨x, y, rfl, -⟩ := h
  simp

theorem decoded_of (n : Nat) : ∀ (j j' : Json), sizeOf j ≤ n → j.toAny = some j' → Decoded j j' := by
  induction n with
  | zero => intro j j' hn; cases j <;> simp at hn
  | succ n ih =>
    intro j j' hn h
    cases j with
    | null => cases h; exact .null
    | bool b => cases h; exact .bool b
    | str s => cases h; exact .str s
    | num t =>
      simp only [Json.toAny, Option.map_eq_some_iff] at h
      obtain ⟨t', h, rfl⟩ := h
      exact .num (normNum_double h)
    | arr l =>
      simp only [Json.toAny, Option.map_eq_some_iff] at h
      obtain ⟨l', h, rfl⟩ := h
      obtain ⟨hl, hg⟩ := toAnyList_get h
      refine .arr hl fun i a b ha hb => ?_
      obtain ⟨h1, rfl⟩ := List.getElem?_eq_some_iff.1 ha
      obtain ⟨h2, rfl⟩ := List.getElem?_eq_some_iff.1 hb
      refine ih _ _ ?_ (hg i h1 h2)
      have := List.sizeOf_lt_of_mem (List.getElem_mem h1)
      simp only [Json.arr.sizeOf_spec] at hn
      omega
    | obj l =>
      simp only [Json.toAny, Option.map_eq_some_iff] at h
      obtain ⟨m, h, rfl⟩ := h
      refine .obj (pairwise_before.1 (GoMap.sorted_ofList _)) (fun k => ?_) fun k a b ha hb => ?_
      · rw [← get?_ofList_none h, GoMap.get?_none_iff]
        simp only [NoMember, List.mem_map, not_exists, not_and]
      · obtain ⟨w, hw, hg⟩ := lastMember_toAny h ha
        have : b = w := by
          have := GoMap.mem_get? (GoMap.sorted_ofList _) hb
          rw [hg] at this
          cases this
          rfl
        subst this
        refine ih _ _ ?_ hw
        have := List.sizeOf_lt_of_mem (mem_lastMember ha)
        simp only [Json.obj.sizeOf_spec, Prod.mk.sizeOf_spec] at hn this
        omega

/-- C89: a document that Go decodes without a schema and encodes again says the same as before. -/
theorem c89_decoded (j j' : Json) (h : j.toAny = some j') : Decoded j j' := decoded_of _ j j' (Nat.le_refl _) h

theorem refused_iff {j : Json} (hw : j.NumsOK) : j.toAny = none ↔ ∃ t, HasNumber t j ∧ TooLarge t := by
  have h := toAny_inRange j hw
  constructor
  · intro hn
    refine Classical.byContradiction fun hc => ?_
    obtain ⟨j', hj'⟩ := h.2 fun t ht hL => hc ⟨t, ht, hL⟩
    rw [hn] at hj'
    cases hj'
  · rintro ⟨t, ht, hL⟩
    cases hj' : j.toAny with
    | none => rfl
    | some j' => exact absurd hL (h.1 ⟨j', hj'⟩ t ht)

/-- C89: Go refuses to decode a document without a schema exactly if one of its numbers, wherever it is, is too large for a double. -/
theorem c89_refused (b : Bytes) (j : Json) (hj : Json.parse b = some j) : j.toAny = none ↔ ∃ t, HasNumber t j ∧ TooLarge t := by
  exact refused_iff (Json.NumsOK_of_WF _ (Json.parse_WF hj))

/-- C89: the same for the runtime's capability arguments, which are values of the caller. -/
theorem c89_refused_args (rt : RuntimeConf) (hrt : rt.OK) (kv : Bytes × Json) (hkv : kv ∈ rt.capArgs) :
    kv.2.toAny = none ↔ ∃ t, HasNumber t kv.2 ∧ TooLarge t := refused_iff (hrt.nums kv hkv)

theorem toAnyList_of {l l' : List Json} (hl : l.length = l'.length) (h : ∀ (i : Nat) a b, l[i]? = some a → l'[i]? = some b → a.toAny = some b) :
    Json.toAnyList l = some l' := by
  induction l generalizing l' with
  | nil =>
    cases l' with
    | nil => rfl
    | cons b l' => cases hl
  | cons a l ih =>
    cases l' with
    | nil => cases hl
    | cons b l' =>
      have h1 := h 0 a b rfl rfl
      have h2 := ih (by simpa using hl) fun i x y hx hy => h (i + 1) x y hx hy
      simp [Json.toAnyList, h1, h2]

theorem toAnyMembers_total {l : List (Bytes × Json)} (h : ∀ p ∈ l, ∃ w, p.2.toAny = some w) : ∃ m, Json.toAnyMembers l = some m := by
  induction l with
  | nil => exact ⟨[], rfl⟩
  | cons p l ih =>
    obtain ⟨k, a⟩ := p
    obtain ⟨w, hw⟩ := h (k, a) (List.mem_cons_self ..)
    obtain ⟨m, hm⟩ := ih fun p hp => h p (List.mem_cons_of_mem _ hp)
    exact ⟨(k, w) :: m, by simp only [Json.toAnyMembers, show a.toAny = some w from hw, hm]⟩

theorem decoded_same {j j' a : Json} (h : Decoded j j') (ha : j.toAny = some a) : j'.toAny = some a := by
  induction h generalizing a with
  | null => exact ha
  | bool b => exact ha
  | str s => exact ha
  | num h =>
    obtain ⟨f, h1, h2⟩ := sameDouble_iff.1 h
    simpa [Json.toAny, normNum, h1, h2] using ha
  | @arr l l' hl _ ih =>
    simp only [Json.toAny, Option.map_eq_some_iff] at ha
    obtain ⟨m, hm, rfl⟩ := ha
    obtain ⟨hl', hg⟩ := toAnyList_get hm
    have := toAnyList_of (l := l') (l' := m) (by omega) fun i x y hx hy => by
      obtain ⟨h1, rfl⟩ := List.getElem?_eq_some_iff.1 hx
      obtain ⟨h2, rfl⟩ := List.getElem?_eq_some_iff.1 hy
      have h3 : i < l.length := by omega
      exact ih i _ _ (List.getElem?_eq_getElem h3) hx (hg i h3 h2)
    simp [Json.toAny, this]
  | @obj l l' hs hk _ ih =>
    simp only [Json.toAny, Option.map_eq_some_iff] at ha
    obtain ⟨m, hm, rfl⟩ := ha
    have hmem : ∀ k b, (k, b) ∈ l' → ∃ w, GoMap.get? (GoMap.ofList m) k = some w ∧ b.toAny = some w := by
      intro k b hb
      have hn : ¬ NoMember l k := fun hn => (hk k).1 hn _ hb rfl
      obtain ⟨x, hx⟩ := lastMember_of_not hn
      obtain ⟨w, hw, hg⟩ := lastMember_toAny hm hx
      exact ⟨w, hg, ih k x b hx hb hw⟩
    obtain ⟨m', hm'⟩ := toAnyMembers_total fun p hp => (hmem p.1 p.2 hp).imp fun _ h => h.2
    have : GoMap.ofList m' = GoMap.ofList m := by
      refine GoMap.ext (GoMap.sorted_ofList _) (GoMap.sorted_ofList _) fun k => ?_
      cases hg : GoMap.get? (GoMap.ofList m') k with
      | none =>
        exact ((get?_ofList_none hm).2 ((hk k).2 ((get?_ofList_none hm').1 hg))).symm
      | some w =>
        obtain ⟨v, hv, hw⟩ := get?_ofList_some hm' hg
        obtain ⟨w', h1, h2⟩ := hmem k v (mem_lastMember hv)
        rw [hw] at h2
        cases h2
        exact h1.symm
    simp [Json.toAny, hm', this]

/-- C89: it depends on nothing else: a document that says the same becomes the same document, to the byte. In particular, doing it again
changes nothing. -/
theorem c89_once (j j' a : Json) (h : Decoded j j') (ha : j.toAny = some a) : j'.toAny = some a ∧ a.toAny = some a :=
  ⟨decoded_same h ha, decoded_same (c89_decoded _ _ ha) ha⟩

/-- C89 for storing values into a plugin's configuration: under every key that is not stored, what was written last is still there and says the
same, and there is nothing else; it fails if a number anywhere in the configuration is too large for a double. -/
theorem c89_inject (orig p : PluginConfig) (kvs : List (Bytes × Option Json)) (hd : (kvs.map Prod.fst).Nodup) (hw : ValsOK (goodVals kvs))
    (h : injectConf orig kvs = .ok p) :
    ∃ ms M, Json.parse orig.bytes = some (.obj ms) ∧ Json.parse p.bytes = some (.obj M) ∧ InRange (.obj ms) ∧
      ∀ k, k ∉ kvs.map Prod.fst → (∀ v, LastMember ms k v → ∃ w, (k, w) ∈ M ∧ Decoded v w) ∧ (NoMember ms k → NoMember M k) := by
  obtain ⟨ms, M, h1, h2, h3, h4, -⟩ := c04_inject_effect orig p kvs hd hw h
  obtain ⟨-, ms', h1', hm, -⟩ := (c04_inject_iff orig kvs hd hw).1 ⟨p, h⟩
  rw [h1] at h1'; cases h1'
  refine ⟨ms, M, h1, h2, hm, fun k hk => ?_⟩
  have := h4.others k (by rwa [goodVals_keys h3])
  refine ⟨fun v hv => ?_, this.2⟩
  obtain ⟨w, hw, hmem⟩ := this.1 v hv
  exact ⟨w, hmem, c89_decoded _ _ hw⟩

/-- C89 for loading a list: it fails if a number anywhere in the list is too large for a double. -/
theorem c89_load (sort : List Bytes → List Bytes) (hsort : VersionSorter sort) (b : Bytes) (L : NetConfList)
    (h : networkConfFromBytesWith sort b = .ok L) : ∃ j, Json.parse b = some j ∧ InRange j := by
  obtain ⟨ms, hp, hm, -⟩ := c09_loaded sort hsort b L h
  exact ⟨_, hp, hm⟩

/-- C89 for the standard input of a plugin (for ADD, CHECK, DEL, and for GC and STATUS): under every key that the runtime does not
set, what the configuration says last is there and says the same, and there is nothing else. -/
theorem c89_stdin (orig stdin : Bytes)
    (hs : (∃ name ver doc args, StdinSpec orig name ver doc args stdin) ∨ ∃ name ver valid, BareStdin orig name ver valid stdin) :
    ∃ ms M, Json.parse orig = some (.obj ms) ∧ Json.parse stdin = some (.obj M) ∧ (M.map Prod.fst).Nodup ∧
      ∀ k, k ∉ runtimeKeys → (∀ v, LastMember ms k v → ∃ w, (k, w) ∈ M ∧ Decoded v w) ∧ (NoMember ms k → NoMember M k) := by
  obtain ⟨ms, M, h1, h2, h3, -⟩ := given_keeps hs (k := b!"type") (by decide)
  refine ⟨ms, M, h1, h2, h3, fun k hk => ?_⟩
  obtain ⟨ms', M', h1', h2', -, h4, h5⟩ := given_keeps hs hk
  rw [h1] at h1'; cases h1'
  rw [h2] at h2'; cases h2'
  refine ⟨fun v hv => ?_, h5⟩
  obtain ⟨w, hw, hmem⟩ := h4 v hv
  exact ⟨w, hmem, c89_decoded _ _ hw⟩

/-- C89 for the previous result: what a plugin is given under `prevResult` and the document of the result say the same: the same
object was decoded from both. -/
theorem c89_prev (orig name ver : Bytes) (doc : Json) (args : GoMap Json) (stdin : Bytes)
    (hs : StdinSpec orig name ver (some doc) args stdin) :
    ∃ M j a, Json.parse stdin = some (.obj M) ∧ (M.map Prod.fst).Nodup ∧ (b!"prevResult", j) ∈ M ∧ Decoded j a ∧ Decoded doc.clean a := by
  obtain ⟨ms, M, rc, -, h2, h3, -, ⟨c, hc⟩, -, -, hp, -⟩ := hs
  obtain ⟨j, hj, he⟩ := hp doc rfl
  have hf := (decPluginConf_isSome M).1 (by rw [hc]; rfl) b!"prevResult" (by decide) j (mem_getField.2 ⟨_, hj, by decide +kernel⟩)
  have hf : (decAnyMap none j).isSome = true := hf
  have : ∃ a, j.toAny = some a := by
    cases j with
    | null => exact ⟨_, rfl⟩
    | obj l =>
      simp only [decAnyMap, Option.isSome_map, Option.isSome_iff_exists] at hf
      obtain ⟨l', hl⟩ := hf
      exact ⟨.obj (GoMap.ofList l'), by simp [Json.toAny, hl]⟩
    | _ => simp [decAnyMap] at hf
  obtain ⟨a, ha⟩ := this
  exact ⟨M, j, a, h2, h3, hj, c89_decoded _ _ ha, c89_decoded _ _ (he.symm.trans ha)⟩
/-- C89 for cnitool: the capability arguments it passes on say the same as the text of CAP_ARGS. -/
theorem c89_tool (text : Bytes) (caps : GoMap Json) (h : CapsOf text caps) (hne : caps ≠ []) :
    ∃ j, Json.parse text = some j ∧ Decoded j (.obj caps) ∧ InRange j := by
  unfold CapsOf at h
  rcases h with ⟨-, rfl⟩ | ⟨-, ⟨-, rfl⟩ | ⟨ms, m, hp, hm, rfl⟩⟩
  · exact absurd rfl hne
  · exact absurd rfl hne
  · exact ⟨_, hp, c89_decoded _ _ (by simp [Json.toAny, hm]), (members_inRange (Json.parse_WF hp)).1 ⟨m, hm⟩⟩

/-- Some doubles: the second text is halfway between two of them, the fourth the least above zero. -/
example : DoubleOf b!"0.1" false 7205759403792794 1018 ∧ DoubleOf b!"9007199254740993" false 4503599627370496 1075 ∧
    DoubleOf b!"-0.0" true 0 0 ∧ DoubleOf b!"5e-324" false 1 0 ∧ SameDouble b!"1E2" b!"100.0" :=
  ⟨(c89_nearest _ ⟨false, 7205759403792794, 1018⟩).1 (by decide +kernel), (c89_nearest _ ⟨false, 4503599627370496, 1075⟩).1 (by decide +kernel),
    (c89_nearest _ ⟨true, 0, 0⟩).1 (by decide +kernel), (c89_nearest _ ⟨false, 1, 0⟩).1 (by decide +kernel),
    sameDouble_iff.2 ⟨⟨false, 7036874417766400, 1028⟩, by decide +kernel, by decide +kernel⟩⟩

/-- The largest double, and a number beyond it. -/
example : DoubleOf b!"1.7976931348623158e308" false (2 ^ 53 - 1) 2045 ∧ TooLarge b!"1.7976931348623159e308" :=
  ⟨(c89_nearest _ ⟨false, 2 ^ 53 - 1, 2045⟩).1 (by decide +kernel), (c89_too_large _ (numberText_iff.2 (by decide +kernel))).1 (by decide +kernel)⟩

/-- A document, and what it becomes. -/
example : (Json.obj [(b!"b", .arr [.num b!"1.50", .null]), (b!"a", .num b!"1"), (b!"b", .arr [.num b!"2E1"])]).toAny =
    some (.obj [(b!"a", .num b!"1"), (b!"b", .arr [.num b!"20"])]) := by decide +kernel

/-- The hypotheses of `c89_inject` are met; and a number too large, even in a member that a later one hides, makes it fail. -/
example : ((injectConf { network := {}, bytes := b!"{\"type\":\"a\",\"x\":[1e2,0.50]}" } [(b!"name", some (.str b!"n"))]).toOption.map (·.bytes)) =
      some b!"{\"name\":\"n\",\"type\":\"a\",\"x\":[100,0.5]}" ∧
    (injectConf { network := {}, bytes := b!"{\"type\":\"a\",\"x\":[1e400],\"x\":1}" } [(b!"name", some (.str b!"n"))]).toOption.isNone = true := by
  decide +kernel

/-- Capability arguments with numbers that meet the hypotheses of the properties about the cache (C16, C17, C21, C64). -/
example : ({ Example.rt with capArgs := [(b!"bandwidth", .obj [(b!"burst", .num b!"1.5e3"), (b!"rate", .num b!"1000")])] } : RuntimeConf).OK ∧
    ∀ kv ∈ [(b!"bandwidth", Json.obj [(b!"burst", .num b!"1.5e3"), (b!"rate", .num b!"1000")])], InRange kv.2 := by
  have h : (Json.obj [(b!"burst", .num b!"1.5e3"), (b!"rate", .num b!"1000")]).NumsOK := by simp [Json.NumsOK, Json.NumsOKMembers]; decide +kernel
  refine ⟨⟨by simp [GoMap.Sorted], by simpa using h⟩, ?_⟩
  simp only [List.mem_singleton, forall_eq]
  exact (toAny_inRange _ h).1 ⟨.obj [(b!"burst", .num b!"1500"), (b!"rate", .num b!"1000")], by decide +kernel⟩

/-- A document that meets the hypothesis of `c89_prev`: built for the second plugin of a list. -/
example : ∃ doc stdin, StdinSpec b!"{\"type\":\"b\",\"x\":1e2}" b!"net" b!"1.0.0" (some doc) [] stdin := by
  have h : (buildOneConfig b!"net" b!"1.0.0" { network := {}, bytes := b!"{\"type\":\"b\",\"x\":1e2}" }
      (some (.v100 { cniVersion := b!"1.0.0" })) {}).toOption.isSome = true := by decide +kernel
  cases hb : buildOneConfig b!"net" b!"1.0.0" { network := {}, bytes := b!"{\"type\":\"b\",\"x\":1e2}" }
      (some (.v100 { cniVersion := b!"1.0.0" })) {} with
  | ok p =>
    obtain ⟨j, -, hj⟩ := (c06_stdin _ _ _ p _ {} ⟨by trivial, by simp⟩ hb).2 _ rfl
    exact ⟨j, _, hj⟩
  | err g => rw [hb] at h; cases h
  | panic => rw [hb] at h; cases h

/-- Capability arguments on the command line of cnitool. -/
example : CapsOf b!"{\"bw\":{\"rate\":1e3}}" [(b!"bw", .obj [(b!"rate", .num b!"1000")])] :=
  .inr ⟨by decide, .inr ⟨[(b!"bw", .obj [(b!"rate", .num b!"1e3")])], [(b!"bw", .obj [(b!"rate", .num b!"1000")])],
    by decide +kernel, by decide +kernel, by decide +kernel⟩⟩

end Verif
