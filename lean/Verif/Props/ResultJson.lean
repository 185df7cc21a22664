/- C32: results survive being written as JSON and read back. -/
import Verif.Types.ResultRoundTrip
import Verif.Props.Convert
import Verif.Types.PluginConf
import Verif.Invoke.Fixup
import Verif.Spec.Doc

namespace Verif
open Spec
set_option linter.unusedSimpArgs false

/-! ### C32 -/

/-- C32. A result whose strings are UTF-8, whose addresses are as parsed and whose integers are `int`s
(float64-exact ones for 1.x, which is re-marshalled through a map) is written as JSON that `Create`
reads back as the same result. -/
theorem c32_roundtrip (e : Bool) (r : Result) (hw : WellTyped r) (h : Representable e r)
    (he : ∀ x, r = .v100 x → e = true) :
    ∃ j, r.json = some j ∧ create r.version j.print = .ok r := by
  obtain ⟨j, h1, h2, h3⟩ := Result.json_reads hw h (by intro hn; cases r <;> simp_all [needsExact])
  refine ⟨j, h1, ?_⟩
  simp only [create, Json.parse_print j h2.2.1]
  exact h3 j (Json.alike_refl j h2.1)

/-- C32, through the cache: the written document, read into an `interface{}` and written again (as the
cache does with results), still reads back as the same result. -/
theorem c32_roundtrip_any (r : Result) (hw : WellTyped r) (h : Representable true r) :
    ∃ j j', r.json = some j ∧ Json.toAny j = some j' ∧ create r.version j'.print = .ok r := by
  obtain ⟨j, h1, h2, h3⟩ := Result.json_reads hw h (fun _ => rfl)
  obtain ⟨j', h4, h5, h6⟩ := h2.toAny
  refine ⟨j, j', h1, h4, ?_⟩
  simp only [create, Json.parse_print j' h6.2.1]
  exact h3 j' h5

/-- Two fields never compete for a key. -/
theorem fieldMatch_single {names : List Bytes} {f k : Bytes} (hf : f ∈ names)
    (hd : ∀ a ∈ names, foldKey a = foldKey f → a = f) :
    fieldMatch names k = some f ↔ fieldMatch [f] k = some f := by
  simp only [fieldMatch, List.mem_singleton]
  by_cases hk : k = f
  · subst hk; simp [hf]
  · by_cases hkn : k ∈ names
    · simp only [hkn, if_true, hk, if_false, Option.some.injEq, false_iff]
      simp only [List.find?_cons, List.find?_nil]
      intro hc
      split at hc
      · rename_i h; simp only [decide_eq_true_eq] at h
        exact hk (hd k hkn h.symm)
      · simp at hc
    · simp only [hkn, if_false, hk]
      simp only [List.find?_cons, List.find?_nil]
      constructor
      · intro h
        have := List.find?_some h
        simp only [decide_eq_true_eq] at this
        simp [this]
      · intro h
        split at h
        · rename_i hh; simp only [decide_eq_true_eq] at hh
          cases hfi : names.find? fun n => decide (foldKey n = foldKey k) with
          | none =>
            rw [List.find?_eq_none] at hfi
            exact absurd hh (by simpa using hfi f hf)
          | some a =>
            have h1 := List.find?_some hfi
            simp only [decide_eq_true_eq] at h1
            rw [hd a (List.mem_of_find?_eq_some hfi) (h1.trans hh.symm)]
        · simp at h

theorem getField_single {names : List Bytes} {f : Bytes} {ms : List (Bytes × Json)} (hf : f ∈ names)
    (hd : ∀ a ∈ names, foldKey a = foldKey f → a = f) :
    getField [f] f ms = getField names f ms := by
  simp only [getField]
  congr 1
  funext m
  simp only [fieldMatch_single (k := m.1) hf hd]

theorem createJson_version {v : Bytes} {j : Json} {r : Result} (h : createJson v j = .ok r) :
    ∃ ms, structMembers j = some ms ∧ ∃ w, decAll decStr [] (getField [b!"cniVersion"] b!"cniVersion" ms) = some w ∧
      r.version = if w = [] then b!"0.1.0" else w := by
  have key : ∀ {names : List Bytes} {ms : List (Bytes × Json)}, b!"cniVersion" ∈ names →
      (∀ a ∈ names, foldKey a = foldKey b!"cniVersion" → a = b!"cniVersion") →
      getField [b!"cniVersion"] b!"cniVersion" ms = getField names b!"cniVersion" ms :=
    fun h1 h2 => getField_single h1 h2
  have hd020 : ∀ a ∈ r020Fields, foldKey a = foldKey b!"cniVersion" → a = b!"cniVersion" := by decide
  have hdres : ∀ a ∈ resFields, foldKey a = foldKey b!"cniVersion" → a = b!"cniVersion" := by decide
  unfold createJson at h
  split at h
  · split at h
    · cases h
    · rename_i x hx
      split at h
      · simp only [decR020, Option.bind_eq_bind, Option.bind_eq_some_iff] at hx
        obtain ⟨ms, h1, w, h2, _, _, _, _, _, _, h3⟩ := hx
        refine ⟨ms, h1, w, by rw [key (by decide) hd020]; exact h2, ?_⟩
        simp only [Option.some.injEq] at h3
        subst h3
        simp only [Out.ok.injEq] at h
        subst h
        simp only [Result.version]
        split <;> simp_all
      · cases h
  · split at h
    · split at h
      · cases h
      · rename_i x hx
        split at h
        · rename_i hm
          simp only [decR040, Option.bind_eq_bind, Option.bind_eq_some_iff] at hx
          obtain ⟨ms, h1, w, h2, _, _, _, _, _, _, _, _, h3⟩ := hx
          refine ⟨ms, h1, w, by rw [key (by decide) hdres]; exact h2, ?_⟩
          simp only [Option.some.injEq] at h3
          subst h3
          simp only [Out.ok.injEq] at h
          subst h
          simp only [Result.version]
          rw [if_neg]
          rintro rfl; revert hm; simp [supported040, supported100]
        · cases h
    · split at h
      · split at h
        · cases h
        · rename_i x hx
          split at h
          · rename_i hm
            simp only [decR100, Option.bind_eq_bind, Option.bind_eq_some_iff] at hx
            obtain ⟨ms, h1, w, h2, _, _, _, _, _, _, _, _, h3⟩ := hx
            refine ⟨ms, h1, w, by rw [key (by decide) hdres]; exact h2, ?_⟩
            simp only [Option.some.injEq] at h3
            subst h3
            simp only [Out.ok.injEq] at h
            subst h
            simp only [Result.version]
            rw [if_neg]
            rintro rfl; revert hm; simp [supported040, supported100]
          · cases h
      · cases h

/-- What `Create` accepts, `DecodeVersion` reads as being in the version of the result. -/
theorem create_decodeVersion {v b : Bytes} {r : Result} (h : create v b = .ok r) : decodeVersion b = .ok r.version := by
  unfold create at h
  split at h
  · cases h
  · rename_i j hj
    obtain ⟨ms, h1, w, h2, h3⟩ := createJson_version h
    simp [decodeVersion, hj, h1, h2, h3]

/-- C32, with the version detected from the document. -/
theorem c32_roundtrip_detect (e : Bool) (r : Result) (hw : WellTyped r) (h : Representable e r)
    (he : ∀ x, r = .v100 x → e = true) :
    ∃ j, r.json = some j ∧ createFromBytes j.print = .ok r := by
  obtain ⟨j, h1, h2⟩ := c32_roundtrip e r hw h he
  exact ⟨j, h1, by simp [createFromBytes, create_decodeVersion h2, h2]⟩

/-- What `Create` yields is in the requested format: its version belongs to the same result type as
the requested one (an empty version counts as 0.1.0). -/
theorem create_wellTyped {v b : Bytes} {r : Result} (h : create v b = .ok r) :
    WellTyped r ∧ ((v = [] ∨ v ∈ old020) ∧ r.version ∈ old020 ∨ v ∈ mid040 ∧ r.version ∈ mid040 ∨
      v ∈ new100 ∧ r.version ∈ new100) := by
  have hs : ∀ {w : Bytes}, w ∈ supported020 → w = [] ∨ w ∈ old020 := by
    intro w hw; simpa [supported020, old020] using hw
  unfold create at h
  split at h
  · cases h
  · rename_i j hj
    unfold createJson at h
    split at h
    · rename_i hv
      split at h
      · cases h
      · rename_i x hx
        split at h
        · rename_i hm
          simp only [Out.ok.injEq] at h
          subst h
          have : (if x.cniVersion = [] then { x with cniVersion := b!"0.1.0" } else x).cniVersion ∈ old020 := by
            rcases hs hm with h0 | h0
            · rw [if_pos h0]; simp [old020]
            · split
              · simp [old020]
              · exact h0
          exact ⟨this, .inl ⟨hs hv, this⟩⟩
        · cases h
    · split at h
      · rename_i hv
        split at h
        · cases h
        · split at h
          · rename_i hm
            simp only [Out.ok.injEq] at h
            subst h
            exact ⟨hm, .inr (.inl ⟨hv, hm⟩)⟩
          · cases h
      · split at h
        · rename_i hv
          split at h
          · cases h
          · split at h
            · rename_i hm
              simp only [Out.ok.injEq] at h
              subst h
              exact ⟨hm, .inr (.inr ⟨hv, hm⟩)⟩
            · cases h
        · cases h

theorem create_ne_panic (v b : Bytes) : create v b ≠ .panic := by
  unfold create createJson
  repeat' split
  all_goals simp

/-- C32 for results built by hand with 4-byte addresses: they come back as the same result with every
address in the 16-byte form the parsers produce. -/
theorem c32_roundtrip_std (e : Bool) (r : Result) (hw : WellTyped r) (h : Representable e (std r))
    (he : ∀ x, r = .v100 x → e = true) :
    ∃ j, r.json = some j ∧ create r.version j.print = .ok (std r) := by
  have := c32_roundtrip e (std r) ((wellTyped_std r).mpr hw) h (by
    intro x hx; cases r <;> simp [std] at hx; exact he _ rfl)
  rwa [json_std, version_std] at this

/-- The theorems apply to results with interfaces, addresses, routes and DNS, of each format. -/
example : WellTyped (.v100 sample100) ∧ Representable true (std (.v100 sample100)) ∧
    WellTyped (.v040 sample040) ∧ Representable true (std (.v040 sample040)) ∧
    WellTyped (.v020 sample020) ∧ Representable true (std (.v020 sample020)) := by
  refine ⟨?_, by decide +kernel, ?_, by decide +kernel, ?_, by decide +kernel⟩
  · show b!"1.1.0" ∈ new100; decide
  · show sample040.cniVersion ∈ mid040; decide
  · show sample020.cniVersion ∈ old020; decide
example : Representable true (.v020 { cniVersion := b!"0.2.0", ip4 := some { ip := ⟨[0,0,0,0,0,0,0,0,0,0,255,255,10,1,2,3], [255,255,255,0]⟩ } }) := by
  decide +kernel

/-- Why 1.x results need float64-exact integers: a larger one is changed by writing it. -/
theorem c32_exact_needed : ∃ r : Result, WellTyped r ∧ Representable false r ∧
    ∀ j, r.json = some j → create r.version j.print ≠ .ok r := by
  refine ⟨.v100 { cniVersion := b!"1.0.0", interfaces := [some { name := b!"e", mtu := 9007199254740993 }] }, ?_, ?_, ?_⟩
  · show b!"1.0.0" ∈ new100; decide
  · decide +kernel
  · intro j hj
    have h0 : (Result.v100 { cniVersion := b!"1.0.0", interfaces := [some { name := b!"e", mtu := 9007199254740993 }] }).json
      = some (.obj [(b!"cniVersion", .str b!"1.0.0"), (b!"interfaces", .arr [.obj [(b!"mtu", .num b!"9007199254740992"), (b!"name", .str b!"e")]])]) := by
      decide +kernel
    rw [h0] at hj
    simp only [Option.some.injEq] at hj
    subst hj
    have : create b!"1.0.0" (Json.obj [(b!"cniVersion", .str b!"1.0.0"), (b!"interfaces", .arr [.obj [(b!"mtu", .num b!"9007199254740992"), (b!"name", .str b!"e")]])]).print
        = .ok (.v100 { cniVersion := b!"1.0.0", interfaces := [some { name := b!"e", mtu := 9007199254740992 }] }) := by
      rfl
    show create b!"1.0.0" _ ≠ _
    rw [this]
    simp

end Verif
