/- C40: the plugin environment. C42: CNI_ARGS. -/
import Verif.Invoke.Args
import Verif.Spec.Env
import Verif.Props.PluginOutput

namespace Verif
open Spec

theorem indexOf_eq_none {e : Bytes} : indexOf b!"=" e = none ↔ 61 ∉ e := by
  induction e with
  | nil => simp [indexOf]
  | cons c r ih =>
    by_cases h : c = 61
    · subst h; simp [indexOf, hasPrefix]
    · simp [indexOf, hasPrefix, h, ih, Ne.symm h]

theorem indexOf_binds {e : Bytes} {i : Nat} (h : indexOf b!"=" e = some i) : Binds e (e.take i) (e.drop (i + 1)) := by
  induction e generalizing i with
  | nil => simp [indexOf] at h
  | cons c r ih =>
    by_cases hc : c = 61
    · subst hc
      simp [indexOf, hasPrefix] at h
      subst h; simp [Binds]
    · simp only [indexOf, hasPrefix, Bool.and_true] at h
      have : (c == 61) = false := by simp [hc]
      rw [this] at h
      simp only [Bool.false_eq_true, if_false, Option.map_eq_some_iff] at h
      obtain ⟨j, hj, rfl⟩ := h
      have := ih hj
      exact ⟨by simp; exact this.1, by simp [Ne.symm hc]; exact this.2⟩

theorem Spec.Binds.unique {e k v k' v' : Bytes} (h : Binds e k v) (h' : Binds e k' v') : k = k' ∧ v = v' := by
  obtain ⟨h1, h2⟩ := h
  obtain ⟨h3, h4⟩ := h'
  rw [h1] at h3
  clear h1
  induction k generalizing k' with
  | nil =>
    cases k' with
    | nil => simp at h3; exact ⟨rfl, h3⟩
    | cons c k' => simp at h3; simp [← h3.1] at h4
  | cons d k ih =>
    cases k' with
    | nil => simp at h3; simp [h3.1] at h2
    | cons c k' =>
      simp at h3 h2 h4
      obtain ⟨rfl, rfl⟩ := ih h2.2 h3.2 h4.2
      exact ⟨by rw [h3.1], rfl⟩

theorem Spec.Binds.mem {e k v : Bytes} (h : Binds e k v) : 61 ∈ e := by rw [h.1]; simp

theorem mem_binds {e : Bytes} (h : 61 ∈ e) : ∃ k v, Binds e k v := by
  cases hi : indexOf b!"=" e with
  | none => exact absurd h (indexOf_eq_none.1 hi)
  | some i => exact ⟨_, _, indexOf_binds hi⟩

/-- What the scan has collected: the malformed entries, and the last binding of every name. -/
theorem dedupScan_spec (env : List Bytes) :
    (dedupScan env).1 = env.filter (fun e => 61 ∉ e) ∧ (dedupScan env).2.Sorted ∧
    (∀ k v, GoMap.get? (dedupScan env).2 k = some v ↔ LastBinding env k v) := by
  induction env using list_snoc_induction with
  | nil =>
    refine ⟨rfl, trivial, fun k v => ?_⟩
    simp [dedupScan, GoMap.get?, LastBinding]
  | snoc env e ih =>
    obtain ⟨h1, h2, h3⟩ := ih
    have hs : dedupScan (env ++ [e]) = (match indexOf b!"=" e with
      | none => ((dedupScan env).1 ++ [e], (dedupScan env).2)
      | some eq => ((dedupScan env).1, GoMap.insert (dedupScan env).2 (e.take eq) (e.drop (eq + 1)))) := by
      simp only [dedupScan, List.foldl_append, List.foldl_cons, List.foldl_nil]; rfl
    cases hi : indexOf b!"=" e with
    | none =>
      have hm := indexOf_eq_none.1 hi
      rw [hi] at hs
      simp only [] at hs
      rw [hs]
      refine ⟨by simp [h1, hm], h2, fun k v => (h3 k v).trans ?_⟩
      have hn : ∀ k v, ¬ Binds e k v := fun k v h => hm h.mem
      constructor
      · rintro ⟨a, x, b, rfl, hb, hl⟩
        exact ⟨a, x, b ++ [e], by simp, hb, by
          intro y hy; simp at hy; rcases hy with hy | rfl
          · exact hl y hy
          · exact fun v' => hn _ _⟩
      · rintro ⟨a, x, b, he, hb, hl⟩
        rcases List.eq_nil_or_concat b with rfl | ⟨b', y, rfl⟩
        · have := List.append_inj_right' he rfl
          simp at this; subst this; exact absurd hb (hn _ _)
        · rw [List.concat_eq_append, ← List.cons_append, ← List.append_assoc] at he
          have h4 := List.append_inj_left' he rfl
          exact ⟨a, x, b', h4, hb, fun y' hy' => hl y' (by simp [hy'])⟩
    | some i =>
      have hbd := indexOf_binds hi
      have hm := hbd.mem
      rw [hi] at hs
      simp only [] at hs
      rw [hs]
      refine ⟨by simp [h1, hm], GoMap.sorted_insert h2 _ _, fun k v => ?_⟩
      simp only [GoMap.get?_insert]
      by_cases hk : e.take i = k
      · rw [if_pos hk]
        subst hk
        constructor
        · intro h; simp at h; subst h
          exact ⟨env, e, [], rfl, hbd, by simp⟩
        · rintro ⟨a, x, b, he, hb, hl⟩
          rcases List.eq_nil_or_concat b with rfl | ⟨b', y, rfl⟩
          · have := List.append_inj_right' he rfl
            simp at this; subst this
            rw [(hbd.unique hb).2]
          · rw [List.concat_eq_append, ← List.cons_append, ← List.append_assoc] at he
            have h4 := List.append_inj_right' he rfl
            simp at h4; subst h4
            exact absurd hbd (hl _ (by simp) _)
      · rw [if_neg hk, h3]
        constructor
        · rintro ⟨a, x, b, rfl, hb, hl⟩
          exact ⟨a, x, b ++ [e], by simp, hb, by
            intro y hy; simp at hy; rcases hy with hy | rfl
            · exact hl y hy
            · exact fun v' h => hk (hbd.unique h).1⟩
        · rintro ⟨a, x, b, he, hb, hl⟩
          rcases List.eq_nil_or_concat b with rfl | ⟨b', y, rfl⟩
          · have := List.append_inj_right' he rfl
            simp at this; subst this; exact absurd (hbd.unique hb).1 hk
          · rw [List.concat_eq_append, ← List.cons_append, ← List.append_assoc] at he
            have h4 := List.append_inj_left' he rfl
            exact ⟨a, x, b', h4, hb, fun y' hy' => hl y' (by simp [hy'])⟩

/-- A Go map iteration order. -/
def IsMapOrder (enum : MapEnum) : Prop := ∀ m, (enum m).Perm m

theorem LastBinding.no_eq {env : List Bytes} {k v : Bytes} (h : LastBinding env k v) : 61 ∉ k := by
  obtain ⟨_, _, _, _, hb, _⟩ := h; exact hb.2

/-- `dedupEnv`: every name once, with its last value; malformed entries kept. -/
theorem dedupEnv_spec {enum : MapEnum} (he : IsMapOrder enum) (env : List Bytes) :
    (∀ k v, LastBinding env k v → SetOnce (dedupEnv enum env) k v) ∧
    (∀ k, Unset env k → Unset (dedupEnv enum env) k) ∧
    (dedupEnv enum env).filter (fun e => 61 ∉ e) = env.filter (fun e => 61 ∉ e) := by
  obtain ⟨h1, h2, h3⟩ := dedupScan_spec env
  have hp := he (dedupScan env).2
  have hnd : ((enum (dedupScan env).2).map Prod.fst).Nodup := (hp.map _).nodup_iff.2 (GoMap.sorted_nodup h2)
  have hmem : ∀ k v, (k, v) ∈ enum (dedupScan env).2 ↔ LastBinding env k v := fun k v => by
    rw [hp.mem_iff, ← h3]
    exact ⟨GoMap.mem_get? h2, GoMap.get?_some_mem⟩
  have hplain : ∀ x ∈ (dedupScan env).1, 61 ∉ x := by
    rw [h1]; intro x hx; simpa using (List.mem_filter.1 hx).2
  have hb : ∀ p ∈ enum (dedupScan env).2, Binds (p.1 ++ b!"=" ++ p.2) p.1 p.2 := fun p hp' =>
    ⟨by simp, LastBinding.no_eq ((hmem p.1 p.2).1 hp')⟩
  refine ⟨?_, ?_, ?_⟩
  · intro k v h
    obtain ⟨a, b, e⟩ := List.append_of_mem ((hmem k v).2 h)
    refine ⟨(dedupScan env).1 ++ a.map (fun kv => kv.1 ++ b!"=" ++ kv.2), k ++ b!"=" ++ v,
      b.map (fun kv => kv.1 ++ b!"=" ++ kv.2), ?_, ?_, ?_⟩
    · simp [dedupEnv, e]
    · exact hb (k, v) ((hmem k v).2 h)
    · intro x hx v' hv'
      simp only [List.mem_append, List.mem_map] at hx
      have hk : ∀ q ∈ a ++ b, q.1 ≠ k := by
        intro q hq hqk
        rw [e] at hnd
        rw [List.map_append, List.map_cons, List.perm_middle.nodup_iff, List.nodup_cons] at hnd
        exact hnd.1 (by rw [← List.map_append]; exact List.mem_map.2 ⟨q, hq, hqk⟩)
      rcases hx with (hx | ⟨q, hq, rfl⟩) | ⟨q, hq, rfl⟩
      · exact hplain x hx hv'.mem
      · exact hk q (by simp [hq]) ((hb q (by rw [e]; simp [hq])).unique hv').1
      · exact hk q (by simp [hq]) ((hb q (by rw [e]; simp [hq])).unique hv').1
  · intro k hu x hx v hv
    simp only [dedupEnv, List.mem_append, List.mem_map] at hx
    rcases hx with hx | ⟨q, hq, rfl⟩
    · exact hplain x hx hv.mem
    · have := (hb q hq).unique hv
      have hl := (hmem q.1 q.2).1 hq
      rw [this.1] at hl
      obtain ⟨a, e, b, rfl, hbb, _⟩ := hl
      exact hu e (by simp) _ hbb
  · simp only [dedupEnv, List.filter_append, h1, List.filter_filter, Bool.and_self]
    conv => rhs; rw [← List.append_nil (List.filter _ env)]
    congr 1
    rw [List.filter_eq_nil_iff]
    intro x hx
    obtain ⟨q, hq, rfl⟩ := List.mem_map.1 hx
    simp

/-- Overriding by appending. -/
theorem dedupEnv_overrides {enum : MapEnum} (he : IsMapOrder enum) (base : List Bytes) (over : List (Bytes × Bytes))
    (hk : ∀ p ∈ over, 61 ∉ p.1) (hnd : (over.map Prod.fst).Nodup) :
    Overrides base over (dedupEnv enum (base ++ over.map fun p => p.1 ++ b!"=" ++ p.2)) := by
  obtain ⟨h1, h2, h3⟩ := dedupEnv_spec he (base ++ over.map fun p => p.1 ++ b!"=" ++ p.2)
  have hbd : ∀ p ∈ over, Binds (p.1 ++ b!"=" ++ p.2) p.1 p.2 := fun p hp => ⟨by simp, hk p hp⟩
  refine ⟨?_, ?_, ?_, ?_⟩
  · intro k v h
    apply h1
    obtain ⟨a, b, rfl⟩ := List.append_of_mem h
    refine ⟨base ++ a.map (fun p => p.1 ++ b!"=" ++ p.2), k ++ b!"=" ++ v, b.map (fun p => p.1 ++ b!"=" ++ p.2),
      by simp, hbd (k, v) (by simp), ?_⟩
    intro x hx v' hv'
    obtain ⟨q, hq, rfl⟩ := List.mem_map.1 hx
    have := ((hbd q (by simp [hq])).unique hv').1
    rw [List.map_append, List.map_cons, List.perm_middle.nodup_iff, List.nodup_cons] at hnd
    exact hnd.1 (by rw [← List.map_append]; exact List.mem_map.2 ⟨q, by simp [hq], this⟩)
  · intro k v hn hl
    apply h1
    obtain ⟨a, e, b, rfl, hb, hl⟩ := hl
    refine ⟨a, e, b ++ over.map (fun p => p.1 ++ b!"=" ++ p.2), by simp, hb, ?_⟩
    intro x hx v' hv'
    simp only [List.mem_append, List.mem_map] at hx
    rcases hx with hx | ⟨q, hq, rfl⟩
    · exact hl x hx v' hv'
    · exact hn (List.mem_map.2 ⟨q, hq, ((hbd q hq).unique hv').1⟩)
  · intro k hn hu
    apply h2
    intro x hx v hv
    simp only [List.mem_append, List.mem_map] at hx
    rcases hx with hx | ⟨q, hq, rfl⟩
    · exact hu x hx v hv
    · exact hn (List.mem_map.2 ⟨q, hq, ((hbd q hq).unique hv).1⟩)
  · rw [h3, List.filter_append]
    conv => rhs; rw [← List.append_nil (List.filter _ base)]
    congr 1
    rw [List.filter_eq_nil_iff]
    intro x hx
    obtain ⟨q, hq, rfl⟩ := List.mem_map.1 hx
    simp

/-- The plugin's environment is the process environment with exactly the six CNI variables overridden, whatever
order the map is enumerated in. -/
theorem c40_plugin_env {enum : MapEnum} (he : IsMapOrder enum) (environ : List Bytes) (a : Args) :
    Overrides environ
      [(b!"CNI_COMMAND", a.command), (b!"CNI_CONTAINERID", a.containerID), (b!"CNI_NETNS", a.netNS),
       (b!"CNI_ARGS", if a.pluginArgsStr = [] then pairsText a.pluginArgs else a.pluginArgsStr),
       (b!"CNI_IFNAME", a.ifName), (b!"CNI_PATH", a.path)]
      (a.asEnv enum environ) := by
  have hs : stringify a.pluginArgs = pairsText a.pluginArgs := by
    unfold stringify
    induction a.pluginArgs with
    | nil => rfl
    | cons p l ih =>
      cases l with
      | nil => simp [joinWith, pairsText]
      | cons q l => simp only [List.map_cons, joinWith, pairsText] at ih ⊢; rw [ih]; simp
  have := dedupEnv_overrides he environ
    [(b!"CNI_COMMAND", a.command), (b!"CNI_CONTAINERID", a.containerID), (b!"CNI_NETNS", a.netNS),
       (b!"CNI_ARGS", if a.pluginArgsStr = [] then pairsText a.pluginArgs else a.pluginArgsStr),
       (b!"CNI_IFNAME", a.ifName), (b!"CNI_PATH", a.path)] (by simp) (by simp)
  unfold Args.asEnv
  rw [hs]
  exact this

/-- A delegate's environment: only CNI_COMMAND is overridden. -/
theorem c40_delegate_env {enum : MapEnum} (he : IsMapOrder enum) (environ : List Bytes) (command : Bytes) :
    Overrides environ [(b!"CNI_COMMAND", command)] (delegateAsEnv enum environ command) :=
  dedupEnv_overrides he environ [(b!"CNI_COMMAND", command)] (by simp) (by simp)

/-- Non-vacuity: an environment with a repeated name, a CNI variable and a malformed entry, and a reversed
enumeration order. -/
example : IsMapOrder List.reverse := fun m => List.reverse_perm m
example : ({ command := b!"ADD", ifName := b!"eth0", pluginArgs := [(b!"K", b!"V"), (b!"L", b!"W")] } : Args).asEnv List.reverse
      [b!"A=1", b!"junk", b!"CNI_IFNAME=x", b!"A=2=3"] =
    [b!"junk", b!"CNI_PATH=", b!"CNI_NETNS=", b!"CNI_IFNAME=eth0", b!"CNI_CONTAINERID=", b!"CNI_COMMAND=ADD",
     b!"CNI_ARGS=K=V;L=W", b!"A=2=3"] := by decide +kernel

/-! ### C42 -/

theorem split_pair {pair k v : Bytes} : splitOn 61 pair = [k, v] ↔ pair = k ++ 61 :: v ∧ 61 ∉ k ∧ 61 ∉ v := by
  constructor
  · intro h
    have h1 := joinWith_splitOn 61 pair
    have h2 := splitOn_pieces_no_sep 61 pair
    rw [h] at h1 h2
    exact ⟨by rw [← h1]; simp [joinWith], h2 k (by simp), h2 v (by simp)⟩
  · rintro ⟨rfl, h1, h2⟩
    rw [splitOn_append_sep _ _ _ h1, splitOn_of_not_mem _ _ h2]

/-- `K=V` -/
def pairText (p : Bytes × Bytes) : Bytes := p.1 ++ 61 :: p.2

theorem pairsText_join (l : List (Bytes × Bytes)) : pairsText l = joinWith [59] (l.map pairText) := by
  induction l with
  | nil => rfl
  | cons p l ih =>
    cases l with
    | nil => rfl
    | cons q l => simp only [pairsText, List.map_cons, joinWith, pairText] at ih ⊢; rw [ih]; simp

theorem split_pairsText {l : List (Bytes × Bytes)} (hne : l ≠ []) (h : CleanPairs l) :
    splitOn 59 (pairsText l) = l.map pairText := by
  rw [pairsText_join]
  apply splitOn_joinWith
  · simpa using hne
  · intro p hp
    obtain ⟨q, hq, rfl⟩ := List.mem_map.1 hp
    have := h q hq
    simp [pairText, this.1, this.2.2.1]

theorem pairsText_of_split {s : Bytes} {l : List (Bytes × Bytes)} (h : splitOn 59 s = l.map pairText)
    (hk : ∀ p ∈ l, 61 ∉ p.1 ∧ 61 ∉ p.2) : l ≠ [] ∧ CleanPairs l ∧ s = pairsText l := by
  refine ⟨?_, ?_, ?_⟩
  · rintro rfl; exact splitOn_ne_nil _ _ h
  · intro p hp
    have := splitOn_pieces_no_sep 59 s (pairText p) (by rw [h]; exact List.mem_map_of_mem hp)
    simp only [pairText, List.mem_append, List.mem_cons, not_or] at this
    exact ⟨this.1, (hk p hp).1, this.2.2, (hk p hp).2⟩
  · rw [pairsText_join, ← h, joinWith_splitOn]

theorem mapM_pairs {segs : List Bytes} {l : List (Bytes × Bytes)} :
    segs.mapM parsePair = some l ↔
    segs = l.map pairText ∧ ∀ p ∈ l, p.1 ≠ [] ∧ p.2 ≠ [] ∧ 61 ∉ p.1 ∧ 61 ∉ p.2 := by
  induction segs generalizing l with
  | nil =>
    simp only [List.mapM_nil, Option.pure_def, Option.some.injEq]
    constructor
    · rintro rfl; simp
    · rintro ⟨h, _⟩; cases l with
      | nil => rfl
      | cons _ _ => simp at h
  | cons s segs ih =>
    simp only [List.mapM_cons, Option.pure_def, Option.bind_eq_bind, Option.bind_eq_some_iff, Option.some.injEq]
    constructor
    · rintro ⟨p, hp, l', hl', rfl⟩
      obtain ⟨h1, h2⟩ := ih.1 hl'
      unfold parsePair at hp
      split at hp
      · rename_i k v hs
        split at hp
        · simp at hp
        · rename_i hkv
          simp at hp; subst hp
          simp only [not_or] at hkv
          have := split_pair.1 hs
          refine ⟨by simp [h1, pairText, this.1], ?_⟩
          intro q hq
          simp at hq
          rcases hq with rfl | hq
          · exact ⟨hkv.1, hkv.2, this.2⟩
          · exact h2 q hq
      · simp at hp
    · rintro ⟨h1, h2⟩
      cases l with
      | nil => simp at h1
      | cons p l =>
        simp only [List.map_cons, List.cons.injEq] at h1
        have hp := h2 p (by simp)
        refine ⟨p, ?_, l, ih.2 ⟨h1.2, fun q hq => h2 q (by simp [hq])⟩, rfl⟩
        rw [h1.1, parsePair, (split_pair (pair := pairText p) (k := p.1) (v := p.2)).2 ⟨rfl, hp.2.2.1, hp.2.2.2⟩]
        simp [hp.1, hp.2.1]

/-- cnitool accepts exactly the texts of non-empty lists of pairs with non-empty names and values, and reads them
back as those pairs. In particular what the runtime writes into CNI_ARGS parses back to the same pairs. -/
theorem c42_parse_iff (s : Bytes) (l : List (Bytes × Bytes)) :
    parseArgs s = some l ↔ l ≠ [] ∧ CleanPairs l ∧ (∀ p ∈ l, p.1 ≠ [] ∧ p.2 ≠ []) ∧ s = pairsText l := by
  unfold parseArgs
  rw [mapM_pairs]
  constructor
  · rintro ⟨h1, h2⟩
    have := pairsText_of_split h1 (fun p hp => (h2 p hp).2.2)
    exact ⟨this.1, this.2.1, fun p hp => ⟨(h2 p hp).1, (h2 p hp).2.1⟩, this.2.2⟩
  · rintro ⟨h1, h2, h3, rfl⟩
    exact ⟨split_pairsText h1 h2, fun p hp => ⟨(h3 p hp).1, (h3 p hp).2, (h2 p hp).2.1, (h2 p hp).2.2.2⟩⟩

/-- What the runtime puts into CNI_ARGS parses back to the same pairs. -/
theorem c42_roundtrip (l : List (Bytes × Bytes)) (hne : l ≠ []) (hc : CleanPairs l)
    (h : ∀ p ∈ l, p.1 ≠ [] ∧ p.2 ≠ []) : parseArgs (stringify l) = some l := by
  refine (c42_parse_iff _ _).2 ⟨hne, hc, h, ?_⟩
  rw [pairsText_join]
  unfold stringify
  congr 1
  exact List.map_congr_left fun p _ => by simp [joinWith, pairText]

theorem ArgField.set_set {f f' : ArgField} {v : Bytes} (h : f.set v = some f') (w : Bytes) : f'.set w = f.set w := by
  cases f with
  | bool b =>
    simp only [ArgField.set] at h
    split at h
    · simp at h; subst h; rfl
    · split at h
      · simp at h; subst h; rfl
      · simp at h
  | str s => simp [ArgField.set] at h; subst h; rfl
  | custom ok l =>
    simp only [ArgField.set] at h
    split at h
    · simp at h; subst h; rfl
    · simp at h
  | noText => simp [ArgField.set] at h

/-- The field after the pairs have been stored: the last one for its name counts. -/
def fieldAfter (f : ArgField) (l : List (Bytes × Bytes)) (k : Bytes) : ArgField :=
  match GoMap.get? l.reverse k with
  | some v => (f.set v).getD f
  | none => f

theorem loadPairs_err {c : Container} {u : List Bytes} {l : List (Bytes × Bytes)} (h : ∀ p ∈ l, 61 ∉ p.1 ∧ 61 ∉ p.2)
    (hb : ∃ p ∈ l, ∃ f, GoMap.get? c p.1 = some f ∧ f.set p.2 = none) :
    ∃ c' u' e, loadPairs c u (l.map pairText) = (c', u', some e) := by
  induction l generalizing c u with
  | nil => simp at hb
  | cons p l ih =>
    obtain ⟨q, hq, f, hf, hs⟩ := hb
    have hp := h p (by simp)
    have hsp : splitOn 61 (pairText p) = [p.1, p.2] := split_pair.2 ⟨rfl, hp.1, hp.2⟩
    simp only [List.map_cons, loadPairs, hsp]
    cases hg : GoMap.get? c p.1 with
    | none =>
      simp only [List.mem_cons] at hq
      rcases hq with rfl | hq
      · rw [hg] at hf; simp at hf
      · exact ih (fun r hr => h r (by simp [hr])) ⟨q, hq, f, hf, hs⟩
    | some g =>
      simp only []
      cases hgs : g.set p.2 with
      | none => simp only []; exact ⟨_, _, _, rfl⟩
      | some g' =>
        simp only [List.mem_cons] at hq ⊢
        rcases hq with rfl | hq
        · rw [hg] at hf; simp at hf; subst hf; rw [hs] at hgs; simp at hgs
        · have hf' : ∃ f', GoMap.get? (GoMap.insert c p.1 g') q.1 = some f' ∧ f'.set q.2 = none := by
            rw [GoMap.get?_insert]
            by_cases e : p.1 = q.1
            · rw [if_pos e]
              refine ⟨g', rfl, ?_⟩
              rw [ArgField.set_set hgs]
              rw [← e, hg] at hf; simp at hf; subst hf; exact hs
            · rw [if_neg e]; exact ⟨f, hf, hs⟩
          obtain ⟨f', h1, h2⟩ := hf'
          exact ih (c := GoMap.insert c p.1 g') (u := u) (fun r hr => h r (by simp [hr])) ⟨q, hq, f', h1, h2⟩

theorem loadPairs_ok {c : Container} {u : List Bytes} {l : List (Bytes × Bytes)} (h : ∀ p ∈ l, 61 ∉ p.1 ∧ 61 ∉ p.2)
    (hb : ∀ p ∈ l, ∀ f, GoMap.get? c p.1 = some f → (f.set p.2).isSome) :
    ∃ c', loadPairs c u (l.map pairText) =
        (c', u ++ (l.filter fun p => (GoMap.get? c p.1).isNone).map pairText, none) ∧
      ∀ k, GoMap.get? c' k = (GoMap.get? c k).map fun f => fieldAfter f l k := by
  induction l generalizing c u with
  | nil => exact ⟨c, by simp [loadPairs], fun k => by simp [fieldAfter, GoMap.get?]⟩
  | cons p l ih =>
    have hp := h p (by simp)
    have hsp : splitOn 61 (pairText p) = [p.1, p.2] := split_pair.2 ⟨rfl, hp.1, hp.2⟩
    simp only [List.map_cons, loadPairs, hsp]
    have hrev : ∀ k, GoMap.get? (p :: l).reverse k =
        (GoMap.get? l.reverse k).or (if p.1 = k then some p.2 else none) := fun k => by
      rw [List.reverse_cons, GoMap.get?_append]
      obtain ⟨a, b⟩ := p; simp [GoMap.get?]
    cases hg : GoMap.get? c p.1 with
    | none =>
      obtain ⟨c', h1, h2⟩ := ih (c := c) (u := u ++ [pairText p]) (fun r hr => h r (by simp [hr]))
        (fun q hq => hb q (by simp [hq]))
      refine ⟨c', ?_, ?_⟩
      · simp only [h1]; simp [hg]
      · intro k
        rw [h2 k]
        cases hk : GoMap.get? c k with
        | none => rfl
        | some f =>
          have : p.1 ≠ k := by rintro rfl; rw [hg] at hk; simp at hk
          simp only [fieldAfter, hrev, this, if_false, Option.or_none]
    | some g =>
      have hs := hb p (by simp) g hg
      obtain ⟨g', hg'⟩ := Option.isSome_iff_exists.1 hs
      simp only [hg']
      have hget : ∀ q, GoMap.get? (GoMap.insert c p.1 g') q = if p.1 = q then some g' else GoMap.get? c q :=
        fun q => GoMap.get?_insert _ _ _ _
      obtain ⟨c', h1, h2⟩ := ih (c := GoMap.insert c p.1 g') (u := u) (fun r hr => h r (by simp [hr]))
        (fun q hq f hf => by
          rw [hget] at hf
          by_cases e : p.1 = q.1
          · rw [if_pos e] at hf; simp at hf; subst hf
            rw [ArgField.set_set hg']; exact hb q (by simp [hq]) g (by rw [← e]; exact hg)
          · rw [if_neg e] at hf; exact hb q (by simp [hq]) f hf)
      refine ⟨c', ?_, ?_⟩
      · rw [h1]
        congr 2
        simp only [List.filter_cons, hg, Option.isNone_some, Bool.false_eq_true, if_false]
        congr 1
        congr 1
        apply List.filter_congr
        intro q _
        rw [hget]
        split
        · rename_i e; rw [← e, hg]; rfl
        · rfl
      · intro k
        rw [h2 k, hget]
        by_cases e : p.1 = k
        · subst e
          simp only [if_true, hg, Option.map_some, Option.some.injEq, fieldAfter, hrev, ]
          cases hv : GoMap.get? l.reverse p.1 with
          | none => simp [hg']
          | some v =>
            simp only [Option.some_or, ArgField.set_set hg' v]
            have hm := GoMap.get?_some_mem hv
            have := hb (p.1, v) (by simp at hm; simp [hm]) g hg
            obtain ⟨x, hx⟩ := Option.isSome_iff_exists.1 this
            simp only at hx
            simp [hx]
        · simp only [if_neg e, fieldAfter, hrev, Option.or_none]

/-- `IgnoreUnknown` is true in the end: its last pair says so, or there is none and it was set before. -/
def Spec.IgnoresUnknown (before : Bool) (l : List (Bytes × Bytes)) : Prop :=
  (∃ v, LastMember l b!"IgnoreUnknown" v ∧ (toLower v = b!"1" ∨ toLower v = b!"true")) ∨
  (NoMember l b!"IgnoreUnknown" ∧ before = true)

/-- LoadArgs on well-formed pairs: it succeeds iff every value for a known field is acceptable to it and either all
names are known or IgnoreUnknown ends up true, wherever it appears; on success every field holds the last value
given for it and all others are unchanged. It never panics. -/
theorem c42_load (c : Container) (b : Bool) (hign : GoMap.get? c b!"IgnoreUnknown" = some (.bool b))
    (l : List (Bytes × Bytes)) (hne : l ≠ []) (hc : CleanPairs l) :
    (loadArgs (pairsText l) c).2 ≠ .panic ∧
    ((loadArgs (pairsText l) c).2 = .ok () ↔
      (∀ p ∈ l, ∀ f, GoMap.get? c p.1 = some f → (f.set p.2).isSome) ∧
      ((∀ p ∈ l, (GoMap.get? c p.1).isSome) ∨ IgnoresUnknown b l)) ∧
    ((loadArgs (pairsText l) c).2 = .ok () → ∀ k f, GoMap.get? c k = some f →
      (NoMember l k → GoMap.get? (loadArgs (pairsText l) c).1 k = some f) ∧
      (∀ v, LastMember l k v → GoMap.get? (loadArgs (pairsText l) c).1 k = f.set v)) ∧
    ((loadArgs (pairsText l) c).2 = .ok () → ∀ k, GoMap.get? c k = none → GoMap.get? (loadArgs (pairsText l) c).1 k = none) := by
  have hs := split_pairsText hne hc
  have hnt : pairsText l ≠ [] := by
    intro e
    rw [e] at hs
    simp only [splitOn] at hs
    cases l with
    | nil => exact hne rfl
    | cons p l => simp [pairText] at hs
  have hq : ∀ p ∈ l, 61 ∉ p.1 ∧ 61 ∉ p.2 := fun p hp => ⟨(hc p hp).2.1, (hc p hp).2.2.2⟩
  unfold loadArgs
  rw [if_neg hnt, hs]
  by_cases hall : ∀ p ∈ l, ∀ f, GoMap.get? c p.1 = some f → (f.set p.2).isSome
  · obtain ⟨c', h1, h2⟩ := loadPairs_ok (u := []) hq hall
    rw [h1]
    simp only [List.nil_append]
    have hkey : ∃ b', GoMap.get? c' b!"IgnoreUnknown" = some (.bool b') ∧ (b' = true ↔ IgnoresUnknown b l) := by
      rw [h2, hign]
      simp only [Option.map_some, fieldAfter]
      cases hr : GoMap.get? l.reverse b!"IgnoreUnknown" with
      | none =>
        refine ⟨b, rfl, ?_⟩
        have hno := noMember_iff.2 hr
        constructor
        · intro h; exact Or.inr ⟨hno, h⟩
        · rintro (⟨v, hv, _⟩ | h)
          · rw [lastMember_iff, hr] at hv; simp at hv
          · exact h.2
      | some v =>
        have hla := lastMember_iff.2 hr
        obtain ⟨x, hx⟩ := Option.isSome_iff_exists.1
          (hall (b!"IgnoreUnknown", v) (by have := GoMap.get?_some_mem hr; simpa using this) _ hign)
        simp only at hx
        simp only [hx, Option.getD_some]
        have hiff : IgnoresUnknown b l ↔ (toLower v = b!"1" ∨ toLower v = b!"true") := by
          constructor
          · rintro (⟨w, hw, h⟩ | h)
            · rw [lastMember_iff, hr] at hw; simp at hw; subst hw; exact h
            · have := noMember_iff.1 h.1; rw [hr] at this; simp at this
          · intro h; exact Or.inl ⟨v, hla, h⟩
        rw [hiff]
        simp only [ArgField.set] at hx
        split at hx
        · rename_i h; simp at hx; subst hx; exact ⟨true, rfl, by simp [h]⟩
        · rename_i h
          split at hx
          · simp at hx; subst hx; exact ⟨false, rfl, by simp [h]⟩
          · simp at hx
    obtain ⟨b', hb', hiff⟩ := hkey
    rw [hb']
    simp only []
    have hun : (l.filter fun p => (GoMap.get? c p.1).isNone).map pairText ≠ [] ↔ ¬ ∀ p ∈ l, (GoMap.get? c p.1).isSome := by
      rw [ne_eq, List.map_eq_nil_iff, List.filter_eq_nil_iff]
      simp [Option.isSome_iff_ne_none]
    have hok : ∀ {x : Container × Out Unit}, x = (c', .ok ()) → _ := fun {x} (hx : x = (c', Out.ok ())) => by
      subst hx
      exact (⟨fun k f hf => ⟨fun hn => by rw [h2, hf]; simp [fieldAfter, noMember_iff.1 hn],
          fun v hv => by
            rw [h2, hf]
            have hv' := lastMember_iff.1 hv
            have hm := GoMap.get?_some_mem hv'
            obtain ⟨x, hx⟩ := Option.isSome_iff_exists.1 (hall (k, v) (by simpa using hm) f hf)
            simp only at hx
            simp [fieldAfter, hv', hx]⟩,
        fun k hk => by rw [h2, hk]; rfl⟩ :
        (∀ k f, GoMap.get? c k = some f → (NoMember l k → GoMap.get? c' k = some f) ∧
          (∀ v, LastMember l k v → GoMap.get? c' k = f.set v)) ∧ (∀ k, GoMap.get? c k = none → GoMap.get? c' k = none))
    by_cases hu : (l.filter fun p => (GoMap.get? c p.1).isNone).map pairText ≠ [] ∧ (!b') = true
    · rw [if_pos hu]
      refine ⟨by simp, ?_, by simp, by simp⟩
      simp only [reduceCtorEq, false_iff, not_and, not_or]
      intro _
      refine ⟨hun.1 hu.1, fun h => ?_⟩
      have := hiff.2 h
      simp [this] at hu
    · rw [if_neg hu]
      refine ⟨by simp, ?_, fun _ => (hok rfl).1, fun _ => (hok rfl).2⟩
      simp only [true_iff]
      refine ⟨hall, ?_⟩
      by_cases hk : ∀ p ∈ l, (GoMap.get? c p.1).isSome
      · exact Or.inl hk
      · right
        rw [← hiff]
        cases b' with
        | true => rfl
        | false => exact absurd ⟨hun.2 hk, rfl⟩ hu
  · have hbad : ∃ p ∈ l, ∃ f, GoMap.get? c p.1 = some f ∧ f.set p.2 = none := by
      refine Classical.byContradiction fun hn => hall fun p hp f hf => ?_
      cases hset : f.set p.2 with
      | some _ => rfl
      | none => exact absurd ⟨p, hp, f, hf, hset⟩ hn
    obtain ⟨c', u', e, h⟩ := loadPairs_err (u := []) hq hbad
    rw [h]
    refine ⟨by simp, ?_, by simp, by simp⟩
    simp only [reduceCtorEq, false_iff, not_and]
    exact fun h => absurd h hall

/-- Malformed text is always rejected: LoadArgs succeeds only on the empty string or the text of clean pairs. -/
theorem c42_load_malformed (c : Container) (s : Bytes) (h : (loadArgs s c).2 = .ok ()) :
    s = [] ∨ ∃ l, l ≠ [] ∧ CleanPairs l ∧ s = pairsText l := by
  by_cases hs : s = []
  · exact Or.inl hs
  · right
    unfold loadArgs at h
    rw [if_neg hs] at h
    have key : ∀ (segs : List Bytes) (c : Container) (u : List Bytes) c' u',
        loadPairs c u segs = (c', u', none) → ∃ l : List (Bytes × Bytes), segs = l.map pairText ∧ ∀ p ∈ l, 61 ∉ p.1 ∧ 61 ∉ p.2 := by
      intro segs
      induction segs with
      | nil => intro c u c' u' _; exact ⟨[], rfl, by simp⟩
      | cons seg segs ih =>
        intro c u c' u' h
        simp only [loadPairs] at h
        split at h
        · rename_i k v hsp
          have hp := split_pair.1 hsp
          have : ∃ l : List (Bytes × Bytes), segs = l.map pairText ∧ ∀ p ∈ l, 61 ∉ p.1 ∧ 61 ∉ p.2 := by
            split at h
            · exact ih _ _ _ _ h
            · split at h
              · simp at h
              · exact ih _ _ _ _ h
          obtain ⟨l, h1, h2⟩ := this
          refine ⟨(k, v) :: l, by simp [h1, pairText, hp.1], ?_⟩
          intro q hq
          simp at hq
          rcases hq with rfl | hq
          · exact hp.2
          · exact h2 q hq
        · simp at h
    cases hl : loadPairs c [] (splitOn 59 s) with
    | mk c' r =>
      obtain ⟨u', e⟩ := r
      rw [hl] at h
      cases e with
      | some e => simp at h
      | none =>
        obtain ⟨l, h1, h2⟩ := key _ _ _ _ _ hl
        exact ⟨l, pairsText_of_split h1 h2⟩

/-- Non-vacuity: `K8S_POD` is known, `FOO` is not; IgnoreUnknown last. -/
def sampleContainer : Container := [(b!"IgnoreUnknown", .bool false), (b!"K8S_POD", .str [])]
example : (loadArgs b!"FOO=1;K8S_POD=p;IgnoreUnknown=TRUE" sampleContainer).2 = .ok () ∧
    GoMap.get? (loadArgs b!"FOO=1;K8S_POD=p;IgnoreUnknown=TRUE" sampleContainer).1 b!"K8S_POD" = some (.str b!"p") := ⟨rfl, rfl⟩
example : ∃ e, (loadArgs b!"FOO=1;K8S_POD=p;IgnoreUnknown=0" sampleContainer).2 = .err e := ⟨_, rfl⟩
example : ∃ e, (loadArgs b!"K8S_POD=p=q" sampleContainer).2 = .err e := ⟨_, rfl⟩
example : CleanPairs [(b!"FOO", b!"1"), (b!"K8S_POD", b!"p"), (b!"IgnoreUnknown", b!"TRUE")] := by
  unfold CleanPairs; decide
example : parseArgs b!"FOO=1;BAR=x" = some [(b!"FOO", b!"1"), (b!"BAR", b!"x")] ∧ parseArgs b!"FOO=" = none ∧
    parseArgs [] = none := by decide

end Verif

