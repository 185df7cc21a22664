/- C44: plugin lookup. C45: plugin execution. C46: plugin errors. C08, C47, C51: numbers, addresses, cnitool. -/
import Verif.Invoke.Exec
import Verif.Spec.Doc
import Verif.Spec.Names
import Verif.Spec.Search
import Verif.Props.Names
import Verif.Json.DecEq

namespace Verif
open Spec
set_option linter.unusedSimpArgs false

deriving instance DecidableEq for Except

/-! ### C44 -/

theorem findExt_find {isReg : Bytes → Bool} {base : Bytes} {exts : List Bytes} :
    findExt isReg base exts = (exts.map fun x => base ++ x).find? isReg := by
  induction exts with
  | nil => rfl
  | cons x xs ih =>
    simp only [findExt, List.map_cons, List.find?_cons, ih]
    cases isReg (base ++ x) <;> rfl

theorem findLoop_find {exts : List Bytes} {isReg : Bytes → Bool} {plugin : Bytes} {paths : List Bytes} :
    findLoop exts isReg plugin paths = (candidates exts paths plugin).find? isReg := by
  induction paths with
  | nil => rfl
  | cons d ds ih =>
    simp only [findLoop, candidates, List.flatMap_cons, List.find?_append, findExt_find]
    rw [show (ds.flatMap fun d => exts.map fun x => joinPath d plugin ++ x) = candidates exts ds plugin from rfl, ← ih]
    cases (exts.map fun x => joinPath d plugin ++ x).find? isReg <;> rfl

/-- C44: lookup succeeds with `p` exactly if the name is non-empty and has no separator, and `p` is the first candidate that is a
regular file. -/
theorem c44_find_iff (exts : List Bytes) (isReg : Bytes → Bool) (plugin : Bytes) (paths : List Bytes) (p : Bytes) :
    findInPath exts isReg plugin paths = .ok p ↔ FoundFirst exts isReg plugin paths p := by
  have key : findInPath exts isReg plugin paths = .ok p ↔
      plugin ≠ [] ∧ 47 ∉ plugin ∧ (candidates exts paths plugin).find? isReg = some p := by
    unfold findInPath
    by_cases h1 : plugin = []
    · simp [h1]
    by_cases h2 : 47 ∈ plugin
    · simp [h1, h2, List.contains_iff_mem]
    by_cases h3 : paths = []
    · simp [h1, h2, h3, List.contains_iff_mem, candidates]
    rw [if_neg h1, if_neg (by simpa using h2), if_neg h3, findLoop_find]
    cases (candidates exts paths plugin).find? isReg <;> simp [h1, h2]
  rw [key, List.find?_eq_some_iff_append]
  constructor
  · rintro ⟨h1, h2, hr, a, b, e, hb⟩
    exact ⟨h1, h2, a, b, e, hr, fun q hq => by simpa using hb q hq⟩
  · rintro ⟨h1, h2, a, b, e, hr, hb⟩
    exact ⟨h1, h2, hr, a, b, e, fun q hq => by simpa using hb q hq⟩

/-- C44: lookup fails exactly when the name is empty or has a separator, or no candidate is a regular file. -/
theorem c44_find_fails_iff (exts : List Bytes) (isReg : Bytes → Bool) (plugin : Bytes) (paths : List Bytes) :
    (∃ e, findInPath exts isReg plugin paths = .error e) ↔
      plugin = [] ∨ 47 ∈ plugin ∨ ∀ d ∈ paths, ∀ x ∈ exts, isReg (joinPath d plugin ++ x) = false := by
  constructor
  · rintro ⟨e, he⟩
    by_cases h1 : plugin = []
    · exact Or.inl h1
    by_cases h2 : 47 ∈ plugin
    · exact Or.inr (Or.inl h2)
    refine Or.inr (Or.inr ?_)
    cases hf : (candidates exts paths plugin).find? isReg with
    | none =>
      rw [List.find?_eq_none] at hf
      intro d hd x hx
      simpa using hf (joinPath d plugin ++ x) (List.mem_flatMap.2 ⟨d, hd, List.mem_map.2 ⟨x, hx, rfl⟩⟩)
    | some p =>
      rw [List.find?_eq_some_iff_append] at hf
      obtain ⟨hr, a, b, e', hb⟩ := hf
      have := (c44_find_iff exts isReg plugin paths p).2 ⟨h1, h2, a, b, e', hr, fun q hq => by simpa using hb q hq⟩
      rw [he] at this; cases this
  · intro h
    cases hf : findInPath exts isReg plugin paths with
    | error e => exact ⟨e, rfl⟩
    | ok p =>
      obtain ⟨h1, h2, a, b, e, hr, -⟩ := (c44_find_iff _ _ _ _ _).1 hf
      rcases h with h | h | h
      · exact absurd h h1
      · exact absurd h h2
      · have hm : p ∈ candidates exts paths plugin := by rw [e]; simp
        obtain ⟨d, hd, hm⟩ := List.mem_flatMap.1 hm
        obtain ⟨x, hx, rfl⟩ := List.mem_map.1 hm
        rw [h d hd x hx] at hr; cases hr

/-- C44: with the extensions of Unix, the candidate of a directory is `dir/name`. -/
theorem c44_unix (paths : List Bytes) (plugin : Bytes) : candidates unixExtensions paths plugin = paths.map fun d => joinPath d plugin := by
  induction paths with
  | nil => rfl
  | cons d ds ih =>
    rw [List.map_cons, ← ih]
    simp [candidates, unixExtensions]

/-- C44: what is found is a direct child, with the given name, of a directory of the search path. -/
theorem c44_no_escape (isReg : Bytes → Bool) (plugin : Bytes) (paths : List Bytes) (p : Bytes)
    (hd : ∀ d ∈ paths, d ≠ []) (hn : plugin ≠ b!"." ∧ plugin ≠ b!"..")
    (h : findInPath unixExtensions isReg plugin paths = .ok p) : ∃ d ∈ paths, p = childPath (cleanPath d) plugin := by
  obtain ⟨h1, h2, b, a, e, -⟩ := (c44_find_iff _ _ _ _ _).1 h
  rw [c44_unix] at e
  have hm : p ∈ paths.map fun d => joinPath d plugin := by rw [e]; simp
  obtain ⟨d, hm', rfl⟩ := List.mem_map.1 hm
  exact ⟨d, hm', joinPath_child (hd d hm') ⟨h1, hn.1, hn.2, h2⟩⟩

example : (findInPath unixExtensions (fun p => p = b!"/opt/b/bridge" || p = b!"/opt/c/bridge") b!"bridge"
    [b!"/opt/a", b!"/opt/b/", b!"/opt/c"]).toOption = some b!"/opt/b/bridge" := by decide
/-- Extensions of a program's own: in each directory they are tried in order. -/
example : (findInPath [b!".sh", []] (fun p => p = b!"/opt/b/bridge" || p = b!"/opt/b/bridge.sh" || p = b!"/opt/c/bridge.sh") b!"bridge"
    [b!"/opt/a", b!"/opt/b/", b!"/opt/c"]).toOption = some b!"/opt/b/bridge.sh" := by decide
/-- A name `..` is looked up as the parent directory (which is normally not a regular file). -/
example : (findInPath unixExtensions (fun p => p = b!"/opt") b!".." [b!"/opt/a"]).toOption = some b!"/opt" := by decide

/-! ### C45 -/

/-- The command could not be started because the binary is being written. -/
def Busy (r : RunResult) : Prop := ∃ e, r.err = some e ∧ containsSub e b!"text file busy" = true

theorem rawExecLoop_spec (quote : Bytes → Bytes) (run : Nat → RunResult) (fuel i : Nat) (out errOut : Bytes) :
    (∀ n, n < fuel → Busy (run (i + n)) ) ∧
      rawExecLoop quote run fuel i out errOut = .ok (out ++ ((List.range fuel).map fun k => (run (i + k)).stdout).flatten,
        errOut ++ ((List.range fuel).map fun k => (run (i + k)).stderr).flatten)
    ∨ ∃ n, n < fuel ∧ (∀ k, k < n → Busy (run (i + k))) ∧ ¬ Busy (run (i + n)) ∧
        ∃ o eo, o = out ++ ((List.range (n + 1)).map fun k => (run (i + k)).stdout).flatten ∧
                eo = errOut ++ ((List.range (n + 1)).map fun k => (run (i + k)).stderr).flatten ∧
        rawExecLoop quote run fuel i out errOut =
          match (run (i + n)).err with
          | none => .ok (o, eo)
          | some e => .error (pluginErr quote e o eo) := by
  induction fuel generalizing i out errOut with
  | zero => left; exact ⟨by omega, by simp [rawExecLoop]⟩
  | succ f ih =>
    have nb : ∀ {e}, (run i).err = e → (∀ t, e = some t → containsSub t b!"text file busy" = false) → ¬ Busy (run i) := by
      rintro e he h ⟨t, ht, hb⟩
      rw [he] at ht; rw [h t ht] at hb; cases hb
    cases he : (run i).err with
    | none =>
      right
      refine ⟨0, by omega, by omega, nb he (by simp), _, _, rfl, rfl, ?_⟩
      simp [rawExecLoop, he, List.range_succ]
    | some t =>
      cases hb : containsSub t b!"text file busy" with
      | false =>
        right
        refine ⟨0, by omega, by omega, nb he (by simpa using hb), _, _, rfl, rfl, ?_⟩
        simp [rawExecLoop, he, hb, List.range_succ]
      | true =>
        have hbusy : Busy (run i) := ⟨t, he, hb⟩
        have e : rawExecLoop quote run (f + 1) i out errOut
            = rawExecLoop quote run f (i + 1) (out ++ (run i).stdout) (errOut ++ (run i).stderr) := by
          simp [rawExecLoop, he, hb]
        rw [e]
        have hs : ∀ k, i + 1 + k = i + (k + 1) := by omega
        rcases ih (i + 1) (out ++ (run i).stdout) (errOut ++ (run i).stderr) with ⟨h1, h2⟩ | ⟨n, hn, h1, h2, o, eo, ho, heo, h3⟩
        · left
          refine ⟨?_, ?_⟩
          rotate_left
          · rw [h2, List.range_succ_eq_map (n := f)]; simp [Function.comp_def, hs]
          intro n hn
          cases n with
          | zero => exact hbusy
          | succ n => have := h1 n (by omega); rwa [hs] at this
        · right
          refine ⟨n + 1, by omega, ?_, by rwa [← hs], o, eo, ?_, ?_, by rw [h3, hs]⟩
          · intro k hk
            cases k with
            | zero => exact hbusy
            | succ k => have := h1 k (by omega); rwa [hs] at this
          · rw [ho, List.range_succ_eq_map (n := n + 1)]; simp [Function.comp_def, hs]
          · rw [heo, List.range_succ_eq_map (n := n + 1)]; simp [Function.comp_def, hs]

/-- C45: executing a plugin reports success exactly if the first of the (at most six) attempts that does not find the binary busy
succeeds, or if all six find it busy. In the first case the output is what was written up to then, and so is what the caller gets from stderr. -/
theorem c45_success (quote : Bytes → Bytes) (run : Nat → RunResult) :
    ((∃ o, rawExec quote run = .ok o) ↔
      (∀ n, n ≤ 5 → Busy (run n)) ∨ ∃ n, n ≤ 5 ∧ (∀ k, k < n → Busy (run k)) ∧ (run n).err = none) ∧
    ∀ n, n ≤ 5 → (∀ k, k < n → Busy (run k)) → (run n).err = none →
      rawExec quote run = .ok (((List.range (n + 1)).map fun k => (run k).stdout).flatten, ((List.range (n + 1)).map fun k => (run k).stderr).flatten) := by
  have nb : ∀ {n}, (run n).err = none → ¬ Busy (run n) := by
    rintro n hn ⟨e, he, -⟩
    rw [hn] at he; cases he
  rcases rawExecLoop_spec quote run 6 0 [] [] with ⟨h1, ho⟩ | ⟨n, hn, h1, h2, o, eo, ho, heo, h3⟩
  · simp only [Nat.zero_add] at h1
    refine ⟨⟨fun _ => .inl fun n hn => h1 n (by omega), fun _ => ⟨_, ho⟩⟩, ?_⟩
    intro n hn _ he
    exact absurd (h1 n (by omega)) (nb he)
  · simp only [Nat.zero_add, List.nil_append] at *
    have key : ∀ m, m ≤ 5 → (∀ k, k < m → Busy (run k)) → (run m).err = none → m = n := by
      intro m hm hb he
      rcases Nat.lt_trichotomy m n with h | h | h
      · exact absurd (h1 m h) (nb he)
      · exact h
      · exact absurd (hb n h) h2
    refine ⟨⟨?_, ?_⟩, ?_⟩
    · rintro ⟨o', hok⟩
      rw [rawExec, h3] at hok
      cases he : (run n).err with
      | none => exact .inr ⟨n, by omega, h1, he⟩
      | some e => rw [he] at hok; cases hok
    · rintro (h | ⟨m, hm, hb, he⟩)
      · exact absurd (h n (by omega)) h2
      · rw [key m hm hb he] at he
        exact ⟨_, by rw [rawExec, h3, he]⟩
    · intro m hm hb he
      have := key m hm hb he
      subst this
      rw [rawExec, h3, he, ho, heo]

/-- C45: an attempt that fails for another reason is the last one, and its error is reported. -/
theorem c45_failure (quote : Bytes → Bytes) (run : Nat → RunResult) (n : Nat) (hn : n ≤ 5) (hb : ∀ k, k < n → Busy (run k))
    (hnb : ¬ Busy (run n)) (e : Bytes) (he : (run n).err = some e) :
    ∃ o eo, o = ((List.range (n + 1)).map fun k => (run k).stdout).flatten ∧
      eo = ((List.range (n + 1)).map fun k => (run k).stderr).flatten ∧ rawExec quote run = .error (pluginErr quote e o eo) := by
  rcases rawExecLoop_spec quote run 6 0 [] [] with ⟨h1, ho⟩ | ⟨m, hm, h1, h2, o, eo, ho, heo, h3⟩
  · have := h1 n (by omega)
    rw [Nat.zero_add] at this
    exact absurd this hnb
  · simp only [Nat.zero_add, List.nil_append] at *
    have : m = n := by
      rcases Nat.lt_trichotomy m n with h | h | h
      · exact absurd (hb m h) h2
      · exact h
      · exact absurd (h1 n h) hnb
    subst this
    exact ⟨o, eo, ho, heo, by rw [rawExec, h3, he]⟩

/-- C45: if all six attempts find the binary busy, then a success is reported, with what they have written. -/
theorem c45_busy (quote : Bytes → Bytes) (run : Nat → RunResult) (h : ∀ n, n ≤ 5 → Busy (run n)) :
    rawExec quote run = .ok (((List.range 6).map fun k => (run k).stdout).flatten, ((List.range 6).map fun k => (run k).stderr).flatten) := by
  rcases rawExecLoop_spec quote run 6 0 [] [] with ⟨-, ho⟩ | ⟨n, hn, -, h2, -⟩
  · simp only [Nat.zero_add, List.nil_append] at ho
    exact ho
  · rw [Nat.zero_add] at h2
    exact absurd (h n (by omega)) h2

/-- C45, a finding: if the binary stays busy, the plugin has never run, and yet a success with empty output is reported. -/
theorem c45_false_when_busy (quote : Bytes → Bytes) (run : Nat → RunResult) (h : ∀ n, n ≤ 5 → Busy (run n))
    (hq : ∀ n, n ≤ 5 → (run n).stdout = [] ∧ (run n).stderr = []) : rawExec quote run = .ok ([], []) := by
  rw [c45_busy quote run h]
  simp [List.range_succ, hq]

/-- A run of six busy attempts. -/
example : ∀ n, n ≤ 5 → Busy ((fun _ => { err := some b!"fork/exec /opt/cni/bin/bridge: text file busy" } : Nat → RunResult) n) :=
  fun _ _ => ⟨_, rfl, by decide⟩
/-- Busy twice, then success. -/
example : rawExec id (fun n => if n < 2 then { err := some b!"text file busy" } else { err := none, stdout := b!"{}" })
    = .ok (b!"{}", []) := by decide

/-! ### C46 -/

/-- Member names of the object that mean `k` for Go's decoder: equal up to letter case. -/
def Named (k : Bytes) (m : Bytes × Json) : Prop := foldKey m.1 = foldKey k

/-- The object says `v` about `k`, and nothing else about it. -/
def OnlyMember (ms : List (Bytes × Json)) (k : Bytes) (v : Json) : Prop :=
  ∃ a b, ms = a ++ (k, v) :: b ∧ ∀ m ∈ a ++ b, ¬ Named k m

/-- The object says nothing about `k`. -/
def NoMemberNamed (ms : List (Bytes × Json)) (k : Bytes) : Prop := ∀ m ∈ ms, ¬ Named k m

/-- The document is a CNI error with this code, message and details; a missing field is zero or empty. -/
structure IsErrorDoc (out : Bytes) (e : CniErr) : Prop where
  ex : ∃ ms, Json.parse out = some (.obj ms)
    ∧ (OnlyMember ms b!"code" (.num (natDigits e.code)) ∨ NoMemberNamed ms b!"code" ∧ e.code = 0)
    ∧ (OnlyMember ms b!"msg" (.str e.msg) ∨ NoMemberNamed ms b!"msg" ∧ e.msg = [])
    ∧ (OnlyMember ms b!"details" (.str e.details) ∨ NoMemberNamed ms b!"details" ∧ e.details = [])
  code : e.code < 2 ^ 64

theorem fieldMatch_err {k f : Bytes} (hf : f ∈ errFields) : fieldMatch errFields k = some f ↔ foldKey k = foldKey f := by
  have inj : ∀ a ∈ errFields, ∀ b ∈ errFields, foldKey a = foldKey b → a = b := by decide
  unfold fieldMatch
  by_cases hk : k ∈ errFields
  · simp only [hk, if_true, Option.some.injEq]
    exact ⟨fun h => by rw [h], fun h => inj _ hk _ hf h⟩
  · simp only [hk, if_false]
    constructor
    · intro h
      have := List.find?_some h
      simpa using (by simpa using this : foldKey f = foldKey k).symm
    · intro h
      cases hh : errFields.find? (fun n => decide (foldKey n = foldKey k)) with
      | none =>
        rw [List.find?_eq_none] at hh
        have := hh f hf
        simp [h] at this
      | some g =>
        have h1 := List.mem_of_find?_eq_some hh
        have h2 := List.find?_some hh
        simp at h2
        rw [inj g h1 f hf (by rw [h2, h])]

theorem parseUint64_natDigits {n : Nat} (h : n < 2 ^ 64) : parseUint64 (natDigits n) = some n := by
  have h2 : ¬ (natDigits n = [] ∨ (natDigits n).any (fun c => !isDigit c) = true) := by
    simp [natDigits_ne_nil, any_not_digit_natDigits]
  rw [parseUint64, if_neg h2, digitsVal_natDigits, if_pos h]

/-- The values the members say about one field decode without error. -/
theorem decErrMember_fields (ms : List (Bytes × Json)) (st : CniErr × Bool) (hst : st.2 = false)
    (e : CniErr)
    (hc : (OnlyMember ms b!"code" (.num (natDigits e.code)) ∧ e.code < 2 ^ 64) ∨ NoMemberNamed ms b!"code" ∧ e.code = st.1.code)
    (hm : OnlyMember ms b!"msg" (.str e.msg) ∨ NoMemberNamed ms b!"msg" ∧ e.msg = st.1.msg)
    (hd : OnlyMember ms b!"details" (.str e.details) ∨ NoMemberNamed ms b!"details" ∧ e.details = st.1.details) :
    ms.foldl decErrMember st = (e, false) := by
  induction ms generalizing st with
  | nil =>
    have no : ∀ {k v}, ¬ OnlyMember [] k v := by rintro k v ⟨a, b, h, _⟩; simp at h
    simp only [no, false_and, false_or] at hc hm hd
    obtain ⟨⟨c, m, d⟩, f⟩ := st
    simp at hst hc hm hd
    subst hst
    simp [List.foldl, ← hc.2, ← hm.2, ← hd.2]
  | cons p ms ih =>
    obtain ⟨k, v⟩ := p
    -- how a field's description changes when the first member is dropped
    have split : ∀ {f : Bytes} {w : Json}, OnlyMember ((k, v) :: ms) f w →
        (foldKey k = foldKey f ∧ v = w ∧ NoMemberNamed ms f) ∨ (foldKey k ≠ foldKey f ∧ OnlyMember ms f w) := by
      rintro f w ⟨a, b, h, hn⟩
      cases a with
      | nil => simp at h; left; exact ⟨by rw [h.1.1], h.1.2, by rw [h.2]; intro m hm; exact hn m (by simpa using hm)⟩
      | cons q a =>
        simp at h
        right
        refine ⟨fun hk => hn (k, v) (by rw [← h.1]; simp) hk, a, b, h.2, fun m hm => hn m ?_⟩
        simp only [List.cons_append]; exact List.mem_cons_of_mem _ hm
    have drop : ∀ {f : Bytes}, NoMemberNamed ((k, v) :: ms) f → foldKey k ≠ foldKey f ∧ NoMemberNamed ms f :=
      fun h => ⟨h (k, v) (by simp), fun m hm => h m (List.mem_cons_of_mem _ hm)⟩
    have mc : fieldMatch errFields k = some b!"code" ↔ foldKey k = foldKey b!"code" := fieldMatch_err (by decide)
    have mm : fieldMatch errFields k = some b!"msg" ↔ foldKey k = foldKey b!"msg" := fieldMatch_err (by decide)
    have md : fieldMatch errFields k = some b!"details" ↔ foldKey k = foldKey b!"details" := fieldMatch_err (by decide)
    have d1 : foldKey b!"code" ≠ foldKey b!"msg" := by decide
    have d2 : foldKey b!"code" ≠ foldKey b!"details" := by decide
    have d3 : foldKey b!"msg" ≠ foldKey b!"details" := by decide
    have hc' : ((foldKey k = foldKey b!"code" ∧ v = .num (natDigits e.code) ∧ NoMemberNamed ms b!"code") ∧ e.code < 2 ^ 64)
        ∨ (foldKey k ≠ foldKey b!"code" ∧ ((OnlyMember ms b!"code" (.num (natDigits e.code)) ∧ e.code < 2 ^ 64)
          ∨ NoMemberNamed ms b!"code" ∧ e.code = st.1.code)) := by
      rcases hc with ⟨h, hl⟩ | ⟨h, hl⟩
      · rcases split h with h | h
        · exact Or.inl ⟨h, hl⟩
        · exact Or.inr ⟨h.1, Or.inl ⟨h.2, hl⟩⟩
      · exact Or.inr ⟨(drop h).1, Or.inr ⟨(drop h).2, hl⟩⟩
    have hm' : ((foldKey k = foldKey b!"msg" ∧ v = .str e.msg ∧ NoMemberNamed ms b!"msg"))
        ∨ (foldKey k ≠ foldKey b!"msg" ∧ (OnlyMember ms b!"msg" (.str e.msg)
          ∨ NoMemberNamed ms b!"msg" ∧ e.msg = st.1.msg)) := by
      rcases hm with h | ⟨h, hl⟩
      · rcases split h with h | h
        · exact Or.inl h
        · exact Or.inr ⟨h.1, Or.inl h.2⟩
      · exact Or.inr ⟨(drop h).1, Or.inr ⟨(drop h).2, hl⟩⟩
    have hd' : ((foldKey k = foldKey b!"details" ∧ v = .str e.details ∧ NoMemberNamed ms b!"details"))
        ∨ (foldKey k ≠ foldKey b!"details" ∧ (OnlyMember ms b!"details" (.str e.details)
          ∨ NoMemberNamed ms b!"details" ∧ e.details = st.1.details)) := by
      rcases hd with h | ⟨h, hl⟩
      · rcases split h with h | h
        · exact Or.inl h
        · exact Or.inr ⟨h.1, Or.inl h.2⟩
      · exact Or.inr ⟨(drop h).1, Or.inr ⟨(drop h).2, hl⟩⟩
    rw [List.foldl_cons]
    rcases hc' with ⟨⟨hk, rfl, hn⟩, hl⟩ | ⟨hk, hc'⟩
    · have e1 : foldKey k ≠ foldKey b!"msg" := by rw [hk]; exact d1
      have e2 : foldKey k ≠ foldKey b!"details" := by rw [hk]; exact d2
      have es : decErrMember st (k, .num (natDigits e.code)) = ({ st.1 with code := e.code }, st.2) := by
        simp only [decErrMember]
        rw [if_pos (mc.2 hk)]
        simp [parseUint64_natDigits hl]
      rw [es]
      refine ih _ hst (Or.inr ⟨hn, rfl⟩) ?_ ?_
      · rcases hm' with ⟨h, _⟩ | ⟨_, h⟩
        · exact absurd h e1
        · exact h
      · rcases hd' with ⟨h, _⟩ | ⟨_, h⟩
        · exact absurd h e2
        · exact h
    · rcases hm' with ⟨hkm, rfl, hn⟩ | ⟨hkm, hm'⟩
      · have e2 : foldKey k ≠ foldKey b!"details" := by rw [hkm]; exact d3
        have es : decErrMember st (k, .str e.msg) = ({ st.1 with msg := e.msg }, st.2) := by
          simp only [decErrMember]
          rw [if_neg (fun h => hk (mc.1 h)), if_pos (mm.2 hkm)]
        rw [es]
        refine ih _ hst hc' (Or.inr ⟨hn, rfl⟩) ?_
        rcases hd' with ⟨h, _⟩ | ⟨_, h⟩
        · exact absurd h e2
        · exact h
      · rcases hd' with ⟨hkd, rfl, hn⟩ | ⟨hkd, hd'⟩
        · have es : decErrMember st (k, .str e.details) = ({ st.1 with details := e.details }, st.2) := by
            simp only [decErrMember]
            rw [if_neg (fun h => hk (mc.1 h)), if_neg (fun h => hkm (mm.1 h)), if_pos (md.2 hkd)]
          rw [es]
          exact ih _ hst hc' hm' (Or.inr ⟨hn, rfl⟩)
        · have es : decErrMember st (k, v) = st := by
            simp only [decErrMember]
            rw [if_neg (fun h => hk (mc.1 h)), if_neg (fun h => hkm (mm.1 h)), if_neg (fun h => hkd (md.1 h))]
          rw [es]
          exact ih _ hst hc' hm' hd'

/-- C46: a failed plugin that printed a CNI error document (any layout, any other members) is reported as
exactly that error, whatever it wrote to stderr and however it exited. -/
theorem c46_error_doc (quote : Bytes → Bytes) (run : Nat → RunResult) (exit : Bytes) (e : CniErr)
    (h0 : (run 0).err = some exit) (hb : ¬ Busy (run 0)) (hdoc : IsErrorDoc (run 0).stdout e) :
    rawExec quote run = .error e := by
  obtain ⟨ms, hp, hc, hm, hd⟩ := hdoc.ex
  have hne : (run 0).stdout ≠ [] := by 
    intro h; rw [h] at hp
    have : Json.parse [] = none := by decide
    rw [this] at hp; cases hp
  have hf : ms.foldl decErrMember ({ code := 0, msg := [] }, false) = (e, false) := by
    refine decErrMember_fields ms _ rfl e ?_ hm hd
    rcases hc with h | h
    · exact Or.inl ⟨h, hdoc.code⟩
    · exact Or.inr h
  have hnb : containsSub exit b!"text file busy" = false := by
    cases hh : containsSub exit b!"text file busy" with
    | false => rfl
    | true => exact absurd ⟨exit, h0, hh⟩ hb
  simp [rawExec, rawExecLoop, h0, hnb, pluginErr, hne, decErrDoc, hp, structMembers, hf]

/-- C46: without output the message is the plugin's stderr (quoted), or else how the process ended. -/
theorem c46_no_output (quote : Bytes → Bytes) (run : Nat → RunResult) (exit : Bytes)
    (h0 : (run 0).err = some exit) (hb : ¬ Busy (run 0)) (ho : (run 0).stdout = []) :
    rawExec quote run = .error
      { code := 0
        msg := if (run 0).stderr = [] then b!"netplugin failed with no error message: " ++ exit
               else b!"netplugin failed: " ++ quote (run 0).stderr } := by
  have hnb : containsSub exit b!"text file busy" = false := by
    cases hh : containsSub exit b!"text file busy" with
    | false => rfl
    | true => exact absurd ⟨exit, h0, hh⟩ hb
  simp only [rawExec, rawExecLoop, h0, hnb, Bool.false_eq_true, if_false, List.nil_append, ho, pluginErr, if_true]
  split <;> rfl

/-- C46: output that is not JSON is reported whole (quoted) as the message. -/
theorem c46_garbage (quote : Bytes → Bytes) (run : Nat → RunResult) (exit : Bytes)
    (h0 : (run 0).err = some exit) (hb : ¬ Busy (run 0)) (hne : (run 0).stdout ≠ [])
    (hp : Json.parse (run 0).stdout = none) :
    rawExec quote run = .error
      { code := 0, msg := b!"netplugin failed but error parsing its diagnostic message " ++ quote (run 0).stdout } := by
  have hnb : containsSub exit b!"text file busy" = false := by
    cases hh : containsSub exit b!"text file busy" with
    | false => rfl
    | true => exact absurd ⟨exit, h0, hh⟩ hb
  simp [rawExec, rawExecLoop, h0, hnb, pluginErr, hne, decErrDoc, hp]

/-- The value cannot be stored in the field: a code that is not a number, has a sign, a fraction or an exponent, or does not fit in 64
bits; a message or details that are not text. (`null` can be stored in all of them.) -/
def Mistyped (m : Bytes × Json) : Prop :=
  m.2 ≠ .null ∧
    ((Named b!"code" m ∧ ∀ l, m.2 = .num l → (∃ c ∈ l, ¬ (48 ≤ c ∧ c ≤ 57)) ∨ 2 ^ 64 ≤ digitsVal l) ∨
     ((Named b!"msg" m ∨ Named b!"details" m) ∧ ∀ s, m.2 ≠ .str s))

theorem decErrMember_flag (st : CniErr × Bool) (m : Bytes × Json) (h : st.2 = true) : (decErrMember st m).2 = true := by
  unfold decErrMember
  repeat' split
  all_goals first | exact h | rfl

theorem foldl_decErr_flag (ms : List (Bytes × Json)) (st : CniErr × Bool) (h : st.2 = true) : (ms.foldl decErrMember st).2 = true := by
  induction ms generalizing st with
  | nil => exact h
  | cons m ms ih => exact ih _ (decErrMember_flag st m h)

theorem decErrMember_mistyped (st : CniErr × Bool) (m : Bytes × Json) (h : Mistyped m) : (decErrMember st m).2 = true := by
  obtain ⟨hn, ⟨hk, hl⟩ | ⟨hk, hs⟩⟩ := h
  · have : fieldMatch errFields m.1 = some b!"code" := (fieldMatch_err (by decide)).2 hk
    unfold decErrMember
    rw [if_pos this]
    split
    · contradiction
    · rename_i l hl'
      have : parseUint64 l = none := by
        unfold parseUint64
        rcases hl l hl' with ⟨c, hc, hd⟩ | hbig
        · have hnd : (!isDigit c) = true := by
            simp only [isDigit, Bool.not_eq_true', Bool.and_eq_false_iff, decide_eq_false_iff_not]
            by_cases h1 : 48 ≤ c
            · exact .inr fun h2 => hd ⟨h1, h2⟩
            · exact .inl h1
          rw [if_pos (.inr (List.any_eq_true.2 ⟨c, hc, hnd⟩))]
        · split
          · rfl
          · rw [if_neg (by omega)]
      rw [this]
    · rfl
  · have ne1 : fieldMatch errFields m.1 ≠ some b!"code" := by
      intro h
      have := (fieldMatch_err (by decide)).1 h
      rcases hk with hk | hk
      · exact absurd (hk.symm.trans this) (by decide)
      · exact absurd (hk.symm.trans this) (by decide)
    unfold decErrMember
    rw [if_neg ne1]
    by_cases hm : fieldMatch errFields m.1 = some b!"msg"
    · rw [if_pos hm]
      split
      · contradiction
      · rename_i s hs'; exact absurd hs' (hs s)
      · rfl
    · rw [if_neg hm, if_pos]
      · split
        · contradiction
        · rename_i s hs'; exact absurd hs' (hs s)
        · rfl
      · rcases hk with hk | hk
        · exact absurd ((fieldMatch_err (by decide)).2 hk) hm
        · exact (fieldMatch_err (by decide)).2 hk

/-- C46: output that is JSON, but not an object (nor `null`), or an object with a value that cannot be stored in an error, is also
reported whole (quoted) as the message. -/
theorem c46_undecodable (quote : Bytes → Bytes) (run : Nat → RunResult) (exit : Bytes)
    (h0 : (run 0).err = some exit) (hb : ¬ Busy (run 0)) (j : Json) (hp : Json.parse (run 0).stdout = some j)
    (hj : (j ≠ .null ∧ ∀ ms, j ≠ .obj ms) ∨ ∃ ms, j = .obj ms ∧ ∃ m ∈ ms, Mistyped m) :
    ∃ e, rawExec quote run = .error e ∧ e.msg = b!"netplugin failed but error parsing its diagnostic message " ++ quote (run 0).stdout := by
  have hnb : containsSub exit b!"text file busy" = false := by
    cases hh : containsSub exit b!"text file busy" with
    | false => rfl
    | true => exact absurd ⟨exit, h0, hh⟩ hb
  have hne : (run 0).stdout ≠ [] := by
    intro h; rw [h] at hp
    have : Json.parse [] = none := by decide
    rw [this] at hp; cases hp
  have hflag : (decErrDoc (run 0).stdout).2 = true := by
    unfold decErrDoc
    rw [hp]
    rcases hj with ⟨h1, h2⟩ | ⟨ms, rfl, m, hm, hmis⟩
    · cases j with
      | null => exact absurd rfl h1
      | obj ms => exact absurd rfl (h2 ms)
      | _ => rfl
    · simp only [structMembers]
      obtain ⟨a, b, rfl⟩ := List.append_of_mem hm
      rw [List.foldl_append, List.foldl_cons]
      exact foldl_decErr_flag _ _ (decErrMember_mistyped _ _ hmis)
  refine ⟨{ (decErrDoc (run 0).stdout).1 with msg := _ }, ?_, rfl⟩
  simp only [rawExec, rawExecLoop, h0, hnb, Bool.false_eq_true, if_false, List.nil_append, pluginErr, if_neg hne, hflag, if_true]

/-- Such outputs. -/
example : Mistyped (b!"Code", .num b!"-1") ∧ Mistyped (b!"code", .str b!"7") ∧ Mistyped (b!"msg", .arr []) ∧
    ¬ Mistyped (b!"code", .num b!"7") ∧ ¬ Mistyped (b!"details", .null) := by
  refine ⟨⟨by simp, .inl ⟨by unfold Named; decide, ?_⟩⟩, ⟨by simp, .inl ⟨rfl, by simp⟩⟩, ⟨by simp, .inr ⟨.inl rfl, by simp⟩⟩, ?_, by simp [Mistyped]⟩
  · intro l h
    cases h
    exact .inl ⟨45, by decide, by decide⟩
  · rintro ⟨-, ⟨-, h⟩ | ⟨h | h, -⟩⟩
    · rcases h _ rfl with h | h
      · revert h; decide
      · revert h; decide
    · revert h; unfold Named; decide
    · revert h; unfold Named; decide

/-- A typical error document, with a member of its own. -/
example : IsErrorDoc b!" { \"cniVersion\": \"1.0.0\", \"code\": 11, \"msg\": \"try again\" , \"details\":\"lock held\"}\n"
    { code := 11, msg := b!"try again", details := b!"lock held" } := by
  refine ⟨⟨[(b!"cniVersion", .str b!"1.0.0"), (b!"code", .num b!"11"), (b!"msg", .str b!"try again"),
    (b!"details", .str b!"lock held")], by decide +kernel, Or.inl ?_, Or.inl ?_, Or.inl ?_⟩, by decide⟩
  · exact ⟨[(b!"cniVersion", .str b!"1.0.0")], [(b!"msg", .str b!"try again"), (b!"details", .str b!"lock held")], rfl,
      by simp only [Named]; decide⟩
  · exact ⟨[(b!"cniVersion", .str b!"1.0.0"), (b!"code", .num b!"11")], [(b!"details", .str b!"lock held")], rfl,
      by simp only [Named]; decide⟩
  · exact ⟨[(b!"cniVersion", .str b!"1.0.0"), (b!"code", .num b!"11"), (b!"msg", .str b!"try again")], [], rfl,
      by simp only [Named]; decide⟩
/-- A code of the wrong type: the message says so, but the details survive. -/
example : rawExec id (fun _ => { err := some b!"exit status 1", stdout := b!"{\"code\":\"x\",\"msg\":\"m\",\"details\":\"d\"}" })
    = .error { code := 0, msg := b!"netplugin failed but error parsing its diagnostic message {\"code\":\"x\",\"msg\":\"m\",\"details\":\"d\"}", details := b!"d" } := by
  decide +kernel

/-! ### C08 -/

/-- C08: an integer of magnitude at most 2^53 in a configuration is written back unchanged. -/
theorem c08_small_integers_kept (n : Int) (h : n.natAbs ≤ 2 ^ 53) :
    (Json.num (itoa n)).toAny = some (.num (itoa n)) := by
  rcases Nat.lt_or_eq_of_le h with h | h
  · simp [Json.toAny, normNum_itoa h]
  · rcases Int.natAbs_eq n with e | e <;> rw [h] at e <;> subst e <;> decide +kernel

/-- C08: beyond that, integers can change: 2^53 + 1 is written back as 2^53. -/
theorem c08_large_integers_change :
    (Json.num (itoa (2 ^ 53 + 1))).toAny = some (.num (itoa (2 ^ 53))) := by
  decide +kernel

/-! ### C47 -/

/-- C47: the text of an IPv4 network, whether Go holds the address in 4 or in 16 bytes, reads back as the same address
(host bits included, in 16-byte form) and the same prefix length. -/
theorem c47_ipv4 (a b c d : UInt8) (p : Nat) (hp : p ≤ 32) (ip : IP)
    (hip : ip = [a, b, c, d] ∨ ip = v4InV6Prefix ++ [a, b, c, d]) :
    parseCIDR (IPNet.str { ip := ip, mask := cidrMask 4 p })
      = some { ip := v4InV6Prefix ++ [a, b, c, d], mask := cidrMask 4 p } := by
  have hc : IPNet.Canon { ip := v4InV6Prefix ++ [a, b, c, d], mask := cidrMask 4 p } := by
    refine ⟨rfl, p, ?_⟩
    simp [IP.to4, v4InV6Prefix, hp]
  have e : IPNet.str { ip := ip, mask := cidrMask 4 p } = IPNet.str { ip := v4InV6Prefix ++ [a, b, c, d], mask := cidrMask 4 p } := by
    rcases hip with rfl | rfl
    · simp [IPNet.str, IPNet.norm, IP.to4, v4InV6Prefix, cidrMask_length]
    · rfl
  rw [e]; exact parseCIDR_str hc

/-- C47: the text of an IPv6 network (not IPv4-mapped) reads back as the same address and prefix length. -/
theorem c47_ipv6 (ip : IP) (p : Nat) (h16 : ip.length = 16) (h4 : ip.take 12 ≠ v4InV6Prefix) (hp : p ≤ 128) :
    parseCIDR (IPNet.str { ip := ip, mask := cidrMask 16 p }) = some { ip := ip, mask := cidrMask 16 p } := by
  apply parseCIDR_str
  refine ⟨h16, p, ?_⟩
  simp [IP.to4, h16, h4, hp]

/-- C47: the JSON document of a network decodes to the network, and is always valid JSON. -/
theorem c47_json (n : IPNet) (h : n.Canon) :
    (Json.parse (jIPNet n).print).bind (decIPNet {}) = some n := by
  rw [Json.parse_print _ (jIPNet_WF h)]
  exact decIPNet_jIPNet (cur := {}) h

/-- C47, the exception: an IPv4-mapped address written with an IPv6 prefix length is written back as IPv4. -/
theorem c47_mapped_changes_family :
    (parseCIDR b!"::ffff:1.2.3.4/120").map IPNet.str = some b!"1.2.3.4/24" := by decide

/-- Host bits are kept. -/
example : IPNet.str { ip := [10, 1, 2, 3], mask := cidrMask 4 16 } = b!"10.1.2.3/16" := by decide
example : IPNet.str { ip := [0x20, 1, 0xd, 0xb8, 0, 0, 0, 0, 0, 0, 0, 0, 0, 0, 0, 5], mask := cidrMask 16 64 }
    = b!"2001:db8::5/64" := by decide

/-! ### C51 -/

theorem hexDigit_alnum (n : Nat) (h : n < 16) : isAlnum (hexDigit n) = true := by
  have : ∀ m : Fin 16, isAlnum (hexDigit m.val) = true := by decide
  exact this ⟨n, h⟩

/-- C51: whatever the hash of the namespace path is, the container ID cnitool derives from it is a valid one. -/
theorem c51_cnitool_id_valid (hash : Bytes) : ValidName (cnitoolContainerID hash) ∧
    validateContainerID (cnitoolContainerID hash) = none := by
  have hx : ∀ c ∈ hexBytes (hash.take 10), isNameChar c = true := by
    intro c hc
    simp only [hexBytes, List.mem_flatMap] at hc
    obtain ⟨x, _, hc⟩ := hc
    have : isAlnum c = true := by
      simp only [List.mem_cons, List.not_mem_nil, or_false] at hc
      have := x.toNat_lt
      rcases hc with rfl | rfl
      · exact hexDigit_alnum _ (by omega)
      · exact hexDigit_alnum _ (by omega)
    simp [isNameChar, this]
  have hv : validateContainerID (cnitoolContainerID hash) = none := by
    have h2 : cniReg (cnitoolContainerID hash) = true := by
      show (isAlnum 99 && (b!"nitool-" ++ hexBytes (hash.take 10)).all isNameChar) = true
      simp only [List.all_append, Bool.and_eq_true]
      exact ⟨by decide, by decide, by simpa [List.all_eq_true] using hx⟩
    have h1 : cnitoolContainerID hash ≠ [] := by simp [cnitoolContainerID]
    simp [validateContainerID, h1, h2]
  exact ⟨(c43_container_id _).1.1 hv, hv⟩

/-- Different hash prefixes give different IDs, so the ID identifies the (hashed) namespace. -/
theorem c51_cnitool_id_injective (h h' : Bytes) (e : cnitoolContainerID h = cnitoolContainerID h') :
    h.take 10 = h'.take 10 := by
  have e' : hexBytes (h.take 10) = hexBytes (h'.take 10) := by simpa [cnitoolContainerID] using e
  have inj : ∀ m n : Fin 16, hexDigit m.val = hexDigit n.val → m = n := by decide
  have hb : ∀ x y : UInt8, hexDigit (x.toNat / 16) = hexDigit (y.toNat / 16) →
      hexDigit (x.toNat % 16) = hexDigit (y.toNat % 16) → x = y := by
    intro x y h1 h2
    have hx := x.toNat_lt; have hy := y.toNat_lt
    have a := inj ⟨x.toNat / 16, by omega⟩ ⟨y.toNat / 16, by omega⟩ h1
    have b := inj ⟨x.toNat % 16, by omega⟩ ⟨y.toNat % 16, by omega⟩ h2
    simp only [Fin.mk.injEq] at a b
    apply UInt8.toNat_inj.1; omega
  have : ∀ l l' : Bytes, hexBytes l = hexBytes l' → l = l' := by
    intro l
    induction l with
    | nil => intro l' h; cases l' with
      | nil => rfl
      | cons y l' => simp [hexBytes] at h
    | cons x l ih =>
      intro l' h
      cases l' with
      | nil => simp [hexBytes] at h
      | cons y l' =>
        simp only [hexBytes, List.flatMap_cons, List.cons_append, List.nil_append, List.cons.injEq] at h
        rw [hb x y h.1 h.2.1, ih l' h.2.2]
  exact this _ _ e'

example : cnitoolContainerID [0x00, 0xff, 0x1a, 1, 2, 3, 4, 5, 6, 7, 8] = b!"cnitool-00ff1a01020304050607" := by decide

end Verif
