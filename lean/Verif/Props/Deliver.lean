/-
C08: numbers anywhere in a configuration, from the text of the list to the standard input of the plugins.
-/
import Verif.Spec.Place
import Verif.Spec.Gc
import Verif.Json.FloatLemmas
import Verif.Props.Exec
import Verif.Props.Conf
import Verif.Props.Add
import Verif.Props.Del
import Verif.Libcni.Interp

namespace Verif
open Spec

variable {flt : Bool}

theorem toAny_valueAt {path : List Place} {j j' v : Json} (h : j.toAny = some j') (hv : ValueAt j path v) :
    ∃ w, v.toAny = some w ∧ ValueAt j' path w := by
  induction path generalizing j j' with
  | nil => simp only [ValueAt] at hv; subst hv; exact ⟨j', h, rfl⟩
  | cons p path ih =>
    cases p with
    | key k =>
      obtain ⟨ms, x, rfl, hl, hv⟩ := hv
      simp only [Json.toAny, Option.map_eq_some_iff] at h
      obtain ⟨m, hm, rfl⟩ := h
      obtain ⟨y, hy, hg⟩ := lastMember_toAny hm hl
      obtain ⟨w, hw, hat⟩ := ih hy hv
      refine ⟨w, hw, _, y, rfl, ?_, hat⟩
      exact lastMember_of_mem (GoMap.sorted_nodup (GoMap.sorted_ofList _)) (GoMap.get?_some_mem hg)
    | idx i =>
      obtain ⟨l, x, rfl, hl, hv⟩ := hv
      simp only [Json.toAny, Option.map_eq_some_iff] at h
      obtain ⟨l', hl', rfl⟩ := h
      obtain ⟨hlen, hget⟩ := toAnyList_get hl'
      obtain ⟨hi, rfl⟩ := List.getElem?_eq_some_iff.1 hl
      have hy := hget i hi (hlen ▸ hi)
      have hg : l'[i]? = some _ := List.getElem?_eq_getElem (hlen ▸ hi)
      obtain ⟨w, hw, hat⟩ := ih hy hv
      exact ⟨w, hw, _, _, rfl, hg, hat⟩

theorem keeps_valueAt {ms M : List (Bytes × Json)} {k : Bytes} (hk : Keeps ms M k) (hn : (M.map Prod.fst).Nodup) {path : List Place} {v : Json}
    (hv : ValueAt (.obj ms) (.key k :: path) v) : ∃ w, v.toAny = some w ∧ ValueAt (.obj M) (.key k :: path) w := by
  obtain ⟨_, x, e, hl, hv⟩ := hv
  cases e
  obtain ⟨y, hy, hm⟩ := hk.1 x hl
  obtain ⟨w, hw, hat⟩ := toAny_valueAt hy hv
  exact ⟨w, hw, _, y, rfl, lastMember_of_mem hn hm, hat⟩

theorem normNum_same {lit lit' : Bytes} (h : normNum lit = some lit') : SameNumber lit lit' := by
  have h0 := h
  simp only [normNum, Option.map_eq_some_iff] at h
  obtain ⟨f, hf, rfl⟩ := h
  refine ⟨sameDouble_iff.2 ⟨f, hf, parseF64_fmt (parseF64_canon hf)⟩, ?_⟩
  rintro n hn rfl
  have := c08_small_integers_kept n hn
  simp only [Json.toAny, h0, Option.map_some, Option.some.injEq, Json.num.injEq] at this
  exact this

theorem valueAt_num {j' : Json} {path : List Place} {lit : Bytes} (h : ∃ w, (Json.num lit).toAny = some w ∧ ValueAt j' path w) :
    ∃ lit', SameNumber lit lit' ∧ ValueAt j' path (.num lit') := by
  obtain ⟨w, hw, hat⟩ := h
  simp only [Json.toAny, Option.map_eq_some_iff] at hw
  obtain ⟨lit', hl, rfl⟩ := hw
  exact ⟨lit', normNum_same hl, hat⟩

/-- The standard input of a plugin, of whatever operation, keeps what is under the keys that are the plugin's own. -/
theorem given_keeps {orig stdin : Bytes}
    (hs : (∃ name ver doc args, StdinSpec orig name ver doc args stdin) ∨ ∃ name ver valid, BareStdin orig name ver valid stdin)
    {k : Bytes} (hk : k ∉ runtimeKeys) :
    ∃ ms M, Json.parse orig = some (.obj ms) ∧ Json.parse stdin = some (.obj M) ∧ (M.map Prod.fst).Nodup ∧ Keeps ms M k := by
  simp only [runtimeKeys, List.mem_cons, List.not_mem_nil, or_false, not_or] at hk
  rcases hs with ⟨name, ver, doc, args, ms, M, rc, h1, h2, h3, -, -, -, -, -, -, -, -, -, h4⟩ | ⟨name, ver, valid, ms, M, h1, h2, h3, -, -, -, -, -, -, h4⟩
  · exact ⟨ms, M, h1, h2, h3, h4 k (by simp [hk])⟩
  · exact ⟨ms, M, h1, h2, h3, h4 k (by simp [hk])⟩

/-- C08: a number anywhere in a plugin's configuration, under a key that the runtime does not set, is at the same place in what the
plugin gets on its standard input (for ADD, CHECK, DEL, and for GC and STATUS), as the same float64; an integer of at most 2^53 is
the same integer. -/
theorem c08_delivered (orig stdin : Bytes)
    (hs : (∃ name ver doc args, StdinSpec orig name ver doc args stdin) ∨ ∃ name ver valid, BareStdin orig name ver valid stdin)
    (j : Json) (hj : Json.parse orig = some j) (k : Bytes) (hk : k ∉ runtimeKeys) (path : List Place) (lit : Bytes)
    (hv : ValueAt j (.key k :: path) (.num lit)) :
    ∃ j' lit', Json.parse stdin = some j' ∧ ValueAt j' (.key k :: path) (.num lit') ∧ SameNumber lit lit' := by
  obtain ⟨ms, M, h1, h2, h3, h4⟩ := given_keeps hs hk
  rw [h1] at hj; cases hj
  obtain ⟨lit', hl, hat⟩ := valueAt_num (keeps_valueAt h4 h3 hv)
  exact ⟨_, lit', h2, hat, hl⟩

theorem sameNumber_trans {a b c : Bytes} (h : SameNumber a b) (h' : SameNumber b c) : SameNumber a c := by
  obtain ⟨hf, h3⟩ := h
  obtain ⟨hg, h6⟩ := h'
  obtain ⟨f, h1, h2⟩ := sameDouble_iff.1 hf
  obtain ⟨g, h4, h5⟩ := sameDouble_iff.1 hg
  rw [h2] at h4; cases h4
  exact ⟨sameDouble_iff.2 ⟨f, h1, h5⟩, fun n hn e => h6 n hn (h3 n hn e)⟩

/-- C08: the same from the text of the list: the number is at its place in the `i`-th plugin of the list, and gets from there to the
standard input of that plugin. -/
theorem c08_from_text (sort : List Bytes → List Bytes) (hsort : VersionSorter sort) (b : Bytes) (L : NetConfList)
    (h : networkConfFromBytesWith sort b = .ok L) (j : Json) (hj : Json.parse b = some j) (i : Nat) (k : Bytes) (hk : k ∉ runtimeKeys)
    (path : List Place) (lit : Bytes) (hv : ValueAt j (.key b!"plugins" :: .idx i :: .key k :: path) (.num lit)) :
    ∃ p, L.plugins[i]? = some p ∧ ∀ stdin,
      (∃ name ver doc args, StdinSpec p.bytes name ver doc args stdin) ∨ (∃ name ver valid, BareStdin p.bytes name ver valid stdin) →
      ∃ j' lit', Json.parse stdin = some j' ∧ ValueAt j' (.key k :: path) (.num lit') ∧ SameNumber lit lit' := by
  obtain ⟨ms, hp, -, -, -, -, -, -, -, hl⟩ := c09_loaded sort hsort b L h
  rw [hp] at hj; cases hj
  obtain ⟨_, x, e, hlast, l0, y, rfl, hy, hv⟩ := hv
  cases e
  rcases hl with ⟨hno, -⟩ | ⟨l, hlast', -, hlen, hpl⟩
  · exact absurd hno (lastMember_not_noMember hlast)
  have := lastMember_unique hlast hlast'
  cases this
  obtain ⟨hi, rfl⟩ := List.getElem?_eq_some_iff.1 hy
  have hi' : i < L.plugins.length := hlen ▸ hi
  refine ⟨L.plugins[i], List.getElem?_eq_getElem hi', fun stdin hs => ?_⟩
  obtain ⟨ms', M, e, hM, hinj, -⟩ := hpl i hi hi'
  rw [e] at hv
  obtain ⟨lit1, hl1, hat1⟩ := valueAt_num (keeps_valueAt (hinj.others k (by simp)) hinj.nodup hv)
  obtain ⟨j', lit', h1, h2, h3⟩ := c08_delivered _ stdin hs _ hM k hk path lit1 hat1
  exact ⟨j', lit', h1, h2, sameNumber_trans hl1 h3⟩

/-- C08 for the ADD of a list, from its text to the `i`-th plugin executed. -/
theorem c08_add_list (sort : List Bytes → List Bytes) (hsort : VersionSorter sort) (b : Bytes) (L : NetConfList)
    (hL : networkConfFromBytesWith sort b = .ok L) (j : Json) (hj : Json.parse b = some j) (i : Nat) (k : Bytes) (hk : k ∉ runtimeKeys)
    (path : List Place) (lit : Bytes) (hv : ValueAt j (.key b!"plugins" :: .idx i :: .key k :: path) (.num lit))
    (c : CNIConfig) (rt : RuntimeConf) (hrt : rt.OK) (fs fs' : FS) (tr : Trace) (o : Out (Option Result))
    (h : Runs flt (c.addNetworkList L rt) fs tr fs' o) (e : ExecEv) (he : tr.execs[i]? = some e) :
    ∃ j' lit', Json.parse e.stdin = some j' ∧ ValueAt j' (.key k :: path) (.num lit') ∧ SameNumber lit lit' := by
  obtain ⟨p, hp, hall⟩ := c08_from_text sort hsort b L hL j hj i k hk path lit hv
  obtain ⟨rs, hch, -⟩ := c12_add_list c L rt hrt fs fs' tr o h
  obtain ⟨p', hp', hin⟩ := hch.invoked i e he
  rw [hp] at hp'; cases hp'
  obtain ⟨doc, -, hs⟩ := hin.stdin
  exact hall e.stdin (.inl ⟨_, _, doc, _, hs⟩)

namespace Example

/-- A list with numbers at various depths: 2^53, a fraction, and 2^53 + 1. Test data; models no code. -/
def numbers : Bytes :=
  b!"{\"name\":\"net\",\"cniVersion\":\"1.0.0\",\"plugins\":[{\"type\":\"a\",\"limits\":{\"rate\":[1, 9007199254740992, 2.50]},\"burst\":9007199254740993}]}"

/-- The list read from that text. Test data; models no code. -/
def numbersPlugin : PluginConfig :=
  { network := { type := b!"a" }
    bytes := b!"{\"burst\":9007199254740992,\"limits\":{\"rate\":[1,9007199254740992,2.5]},\"type\":\"a\"}" }
def numbersList : NetConfList := { name := b!"net", cniVersion := b!"1.0.0", plugins := [numbersPlugin], bytes := numbers }

theorem numbersList_loads : networkConfFromBytes numbers = .ok numbersList := by
  have h : (networkConfFromBytes numbers).toOption = some numbersList := by decide +kernel
  revert h
  cases networkConfFromBytes numbers <;> simp [Out.toOption]

/-- C08, a finding: `burst` is 2^53 + 1 in the text of the list, and 2^53 when it reaches the plugin. The other numbers are as they were
(the fraction in its shortest form). -/
theorem _root_.Verif.c08_large_changed : ∃ L, networkConfFromBytes
      b!"{\"name\":\"net\",\"cniVersion\":\"1.0.0\",\"plugins\":[{\"type\":\"a\",\"limits\":{\"rate\":[1, 9007199254740992, 2.50]},\"burst\":9007199254740993}]}" = .ok L ∧
    ∃ tr fs' o, Runs false (cfg.addNetworkList L rt) noFiles tr fs' o ∧ tr.execs.map (fun e => e.stdin) =
      [b!"{\"burst\":9007199254740992,\"cniVersion\":\"1.0.0\",\"limits\":{\"rate\":[1,9007199254740992,2.5]},\"name\":\"net\",\"type\":\"a\"}"] :=
  ⟨numbersList, numbersList_loads,
    Prog.interp_exists (find := find) (exec := good) (fun tr _ _ => tr.execs.map (fun e => e.stdin)) (by decide +kernel)⟩

/-- The members of `numbers` and of the plugin in it. Test data; models no code. -/
def limitsDoc : Json := .obj [(b!"rate", .arr [.num b!"1", .num b!"9007199254740992", .num b!"2.50"])]
def pluginDoc : Json := .obj [(b!"type", .str b!"a"), (b!"limits", limitsDoc), (b!"burst", .num b!"9007199254740993")]
def numbersDoc : Json := .obj [(b!"name", .str b!"net"), (b!"cniVersion", .str b!"1.0.0"), (b!"plugins", .arr [pluginDoc])]

/-- The hypotheses of `c08_add_list` are met for the 2^53 of the list. -/
example : Json.parse numbers = some numbersDoc ∧
    ValueAt numbersDoc [.key b!"plugins", .idx 0, .key b!"limits", .key b!"rate", .idx 1] (.num (itoa (2 ^ 53))) ∧ b!"limits" ∉ runtimeKeys := by
  refine ⟨by decide +kernel, ?_, by decide⟩
  refine ⟨_, .arr [pluginDoc], rfl, ⟨[(b!"name", .str b!"net"), (b!"cniVersion", .str b!"1.0.0")], [], rfl, by simp⟩, _, pluginDoc, rfl, rfl, _, limitsDoc, rfl,
    ⟨[(b!"type", .str b!"a")], [(b!"burst", .num b!"9007199254740993")], rfl, by decide⟩,
    _, .arr [.num b!"1", .num b!"9007199254740992", .num b!"2.50"], rfl, ⟨[], [], rfl, by simp⟩, _, .num b!"9007199254740992", rfl, rfl, ?_⟩
  simp only [ValueAt]
  decide +kernel

end Example
end Verif
