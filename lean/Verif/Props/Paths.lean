/-
C87: where the files of the runtime, its plugins and its configurations are: the spot a directory's text leads to, and not the text, counts.
-/
import Verif.Base.PathLemmas
import Verif.Props.CacheDir
import Verif.Props.Exec
import Verif.Cnitool.Main
import Verif.Spec.Tool

namespace Verif
open Spec

/-- C87: every text leads to exactly one spot. -/
theorem c87_spot (s : Bytes) : ∃ p, LeadsTo s p ∧ ∀ q, LeadsTo s q → q = p :=
  ⟨spotOf s, (leadsTo_iff _ _).2 rfl, fun _ h => (leadsTo_iff _ _).1 h⟩

/-- C87: the cleaned path leads where the path does, and paths have the same cleaned path exactly when they lead to the same spot. -/
theorem c87_clean (s t : Bytes) : (∀ p, LeadsTo (cleanPath s) p ↔ LeadsTo s p) ∧ (cleanPath s = cleanPath t ↔ SameSpot s t) :=
  ⟨fun p => by rw [leadsTo_iff, leadsTo_iff, spotOf_clean], by rw [cleanPath_eq_iff, sameSpot_iff]⟩

/-! ### the cache directory -/

section
variable {c : CNIConfig} {d : Bytes}

theorem cachePath_spelled (hc : c.cacheDir ≠ []) (hd : d ≠ []) (h : SameSpot c.cacheDir d) (name : Bytes) (rt : RuntimeConf) :
    CNIConfig.cachePath { c with cacheDir := d } name rt = c.cachePath name rt := by
  have hs := (sameSpot_iff _ _).1 h
  unfold CNIConfig.cachePath CNIConfig.getCacheDir
  simp only [ne_eq, hc, hd, not_false_eq_true, if_true]
  split
  · rfl
  · congr 1
    rw [cleanPath_eq_iff, List.append_assoc, List.append_assoc]
    exact (spotOf_append_congr hc hd hs).symm

theorem attachments_spelled (hc : c.cacheDir ≠ []) (hd : d ≠ []) (h : SameSpot c.cacheDir d) :
    CNIConfig.getCachedAttachments { c with cacheDir := d } = c.getCachedAttachments := by
  have hs := (sameSpot_iff _ _).1 h
  funext cid
  have : joinPath d b!"results" = joinPath c.cacheDir b!"results" := by
    unfold joinPath
    rw [if_neg hc, if_neg hd, if_neg (by decide), if_neg (by decide), cleanPath_eq_iff]
    exact (spotOf_append_congr hc hd hs).symm
  have e1 : CNIConfig.getCacheDir { c with cacheDir := d } {} = d := by simp [CNIConfig.getCacheDir, hd]
  have e2 : c.getCacheDir {} = c.cacheDir := by simp [CNIConfig.getCacheDir, hc]
  unfold CNIConfig.getCachedAttachments
  rw [e1, e2, this]

theorem addLoop_spelled (name ver : Bytes) (rt : RuntimeConf) (ps : List PluginConfig) (prev : Option Result) :
    CNIConfig.addLoop { c with cacheDir := d } name ver rt ps prev = c.addLoop name ver rt ps prev := by
  induction ps generalizing prev with
  | nil => rfl
  | cons p ps ih =>
    simp only [CNIConfig.addLoop, ih]
    rfl

theorem checkLoop_spelled (name ver : Bytes) (rt : RuntimeConf) (ps : List PluginConfig) (prev : Option Result) :
    CNIConfig.checkLoop { c with cacheDir := d } name ver prev rt ps = c.checkLoop name ver prev rt ps := by
  induction ps with
  | nil => rfl
  | cons p ps ih =>
    simp only [CNIConfig.checkLoop, ih]
    rfl

theorem delLoop_spelled (name ver : Bytes) (rt : RuntimeConf) (ps : List PluginConfig) (prev : Option Result) :
    CNIConfig.delLoop { c with cacheDir := d } name ver prev rt ps = c.delLoop name ver prev rt ps := by
  induction ps with
  | nil => rfl
  | cons p ps ih =>
    simp only [CNIConfig.delLoop, ih]
    rfl

theorem gcLoop_spelled (name ver : Bytes) (valid : Option (List GCAttachment)) (ps : List PluginConfig) (errs : List GoErr) :
    CNIConfig.gcLoop { c with cacheDir := d } name ver valid ps errs = c.gcLoop name ver valid ps errs := by
  induction ps generalizing errs with
  | nil => rfl
  | cons p ps ih =>
    simp only [CNIConfig.gcLoop, ih]
    rfl

/-- C87: two texts for the cache directory that lead to the same spot are the same to every operation: the same plugins are executed with
the same inputs, the same files are read, written and removed, and the outcome is the same, whatever the files hold and however the
plugins answer. -/
theorem c87_spelling (c : CNIConfig) (d : Bytes) (hc : c.cacheDir ≠ []) (hd : d ≠ []) (h : SameSpot c.cacheDir d) (flt : Bool)
    (list : NetConfList) (net : PluginConfig) (rt : RuntimeConf) (valid : Option (List GCAttachment)) (cid : Bytes)
    (fs fs' : FS) (tr : Trace) :
    (∀ o, Runs flt (CNIConfig.addNetworkList { c with cacheDir := d } list rt) fs tr fs' o ↔ Runs flt (c.addNetworkList list rt) fs tr fs' o) ∧
    (∀ o, Runs flt (CNIConfig.checkNetworkList { c with cacheDir := d } list rt) fs tr fs' o ↔ Runs flt (c.checkNetworkList list rt) fs tr fs' o) ∧
    (∀ o, Runs flt (CNIConfig.delNetworkList { c with cacheDir := d } list rt) fs tr fs' o ↔ Runs flt (c.delNetworkList list rt) fs tr fs' o) ∧
    (∀ o, Runs flt (CNIConfig.gcNetworkList { c with cacheDir := d } list valid) fs tr fs' o ↔ Runs flt (c.gcNetworkList list valid) fs tr fs' o) ∧
    (∀ o, Runs flt (CNIConfig.addNetwork { c with cacheDir := d } net rt) fs tr fs' o ↔ Runs flt (c.addNetwork net rt) fs tr fs' o) ∧
    (∀ o, Runs flt (CNIConfig.checkNetwork { c with cacheDir := d } net rt) fs tr fs' o ↔ Runs flt (c.checkNetwork net rt) fs tr fs' o) ∧
    (∀ o, Runs flt (CNIConfig.delNetwork { c with cacheDir := d } net rt) fs tr fs' o ↔ Runs flt (c.delNetwork net rt) fs tr fs' o) ∧
    (∀ o, Runs flt (CNIConfig.getNetworkListCachedResult { c with cacheDir := d } list rt) fs tr fs' o ↔
      Runs flt (c.getNetworkListCachedResult list rt) fs tr fs' o) ∧
    (∀ o, Runs flt (CNIConfig.getNetworkListCachedConfig { c with cacheDir := d } list rt) fs tr fs' o ↔
      Runs flt (c.getNetworkListCachedConfig list rt) fs tr fs' o) ∧
    (∀ o, Runs flt (CNIConfig.getNetworkCachedResult { c with cacheDir := d } net rt) fs tr fs' o ↔
      Runs flt (c.getNetworkCachedResult net rt) fs tr fs' o) ∧
    (∀ o, Runs flt (CNIConfig.getNetworkCachedConfig { c with cacheDir := d } net rt) fs tr fs' o ↔
      Runs flt (c.getNetworkCachedConfig net rt) fs tr fs' o) ∧
    (∀ o, Runs flt (CNIConfig.getCachedAttachments { c with cacheDir := d } cid) fs tr fs' o ↔ Runs flt (c.getCachedAttachments cid) fs tr fs' o) := by
  have hp := cachePath_spelled hc hd h
  have h1 : ∀ verb name ver net prev rt, CNIConfig.runNetwork1 { c with cacheDir := d } verb name ver net prev rt =
      c.runNetwork1 verb name ver net prev rt := fun _ _ _ _ _ _ => rfl
  have h2 : ∀ name ver net prev rt, CNIConfig.addNetwork1 { c with cacheDir := d } name ver net prev rt =
      c.addNetwork1 name ver net prev rt := fun _ _ _ _ _ => rfl
  have h3 : ∀ r b n rt, CNIConfig.cacheAdd { c with cacheDir := d } r b n rt = c.cacheAdd r b n rt := fun _ _ _ _ => by
    unfold CNIConfig.cacheAdd; rw [hp]
  have h4 : ∀ n rt, CNIConfig.cacheDel { c with cacheDir := d } n rt = c.cacheDel n rt := fun _ _ => by
    unfold CNIConfig.cacheDel; rw [hp]
  have h5 : ∀ n v rt, CNIConfig.getCachedResult { c with cacheDir := d } n v rt = c.getCachedResult n v rt := fun _ _ _ => by
    unfold CNIConfig.getCachedResult; rw [hp]
  have h6 : ∀ n rt, CNIConfig.getCachedConfig { c with cacheDir := d } n rt = c.getCachedConfig n rt := fun _ _ => by
    unfold CNIConfig.getCachedConfig; rw [hp]
  have h7 : ∀ l rt, CNIConfig.delNetworkList { c with cacheDir := d } l rt = c.delNetworkList l rt := fun _ _ => by
    unfold CNIConfig.delNetworkList CNIConfig.delPrev; simp only [delLoop_spelled, h4, h5]
  have h8 : ∀ atts errs, CNIConfig.gcDelLoop { c with cacheDir := d } list valid atts errs = c.gcDelLoop list valid atts errs := by
    intro atts
    induction atts with
    | nil => intro errs; rfl
    | cons a atts ih => intro errs; simp only [CNIConfig.gcDelLoop, h7, ih]
  refine ⟨fun o => ?_, fun o => ?_, fun o => ?_, fun o => ?_, fun o => ?_, fun o => ?_, fun o => ?_, fun o => ?_, fun o => ?_, fun o => ?_,
    fun o => ?_, fun o => ?_⟩
  · unfold CNIConfig.addNetworkList; simp only [addLoop_spelled, h3]
  · unfold CNIConfig.checkNetworkList; simp only [checkLoop_spelled, h5]
  · rw [h7]
  · unfold CNIConfig.gcNetworkList; simp only [attachments_spelled hc hd h, h8, gcLoop_spelled]
  · unfold CNIConfig.addNetwork; simp only [h2, h3]
  · unfold CNIConfig.checkNetwork; simp only [h1, h5]
  · unfold CNIConfig.delNetwork; simp only [h1, h4, h5]
  · unfold CNIConfig.getNetworkListCachedResult; rw [h5]
  · unfold CNIConfig.getNetworkListCachedConfig; rw [h6]
  · unfold CNIConfig.getNetworkCachedResult; rw [h5]
  · unfold CNIConfig.getNetworkCachedConfig; rw [h6]
  · rw [attachments_spelled hc hd h]
end

theorem spotOf_results {r : Bytes} (hr : r ≠ []) : spotOf (r ++ b!"/results") = (spotOf r).child b!"results" :=
  spotOf_snoc (c := b!"results") hr (by unfold IsComp; decide)

theorem spotOf_childPath {r n : Bytes} (hn : IsComp n) : spotOf (childPath (cleanPath r) n) = (spotOf r).child n := by
  cases r with
  | nil => 
    have : childPath (cleanPath []) n = n := by
      have : cleanPath [] = b!"." := by decide
      rw [this]; simp [childPath]
    rw [this, spotOf_comp hn]; rfl
  | cons x r =>
    rw [← joinPath_child (List.cons_ne_nil x r) hn]
    exact spotOf_join hn

theorem spotOf_entry {c : CNIConfig} {name : Bytes} {rt : RuntimeConf} (hp : PlainNames name rt) :
    spotOf (entryPath c name rt) = ((spotOf (cacheRoot c rt)).child b!"results").child (cacheFileName name rt.containerID rt.ifName) := by
  have hcomp := cacheFileName_comp hp.name.2 hp.cid.2 hp.ifn.2
  have := spotOf_childPath (r := cacheRoot c rt ++ b!"/results") hcomp
  rw [spotOf_results (cacheRoot_ne_nil c rt)] at this
  exact this

/-- C87: the file of an attachment is the one called `network-container-interface` in the directory `results` of the spot the cache
directory leads to. -/
theorem c87_entry (c : CNIConfig) (name : Bytes) (rt : RuntimeConf) (hp : PlainNames name rt) (p : Spot) (h : LeadsTo (cacheRoot c rt) p) :
    c.cachePath name rt = .ok (entryPath c name rt) ∧
      LeadsTo (entryPath c name rt) ((p.child b!"results").child (name ++ b!"-" ++ rt.containerID ++ b!"-" ++ rt.ifName)) := by
  refine ⟨cachePath_eq hp, ?_⟩
  rw [leadsTo_iff] at h ⊢
  rw [spotOf_entry hp, h]
  rfl

/-- C87: attachments kept in cache directories that lead to different spots are never in the same file: an ADD with one changes nothing for
a lookup with the other. -/
theorem c87_apart (c c2 : CNIConfig) (list list2 : NetConfList) (rt rt2 : RuntimeConf) (hrt : rt.OK) (hne : list.plugins ≠ [])
    (hn : PlainNames list2.name rt2) (hd : ¬ SameSpot (cacheRoot c rt) (cacheRoot c2 rt2))
    (fs fs' f1 f2 : FS) (tr tr1 tr2 : Trace) (o : Out (Option Result)) (o1 o2 : Out (Option Result))
    (h : Runs flt (c.addNetworkList list rt) fs tr fs' o) (h1 : Runs false (c2.getNetworkListCachedResult list2 rt2) fs tr1 f1 o1)
    (h2 : Runs false (c2.getNetworkListCachedResult list2 rt2) fs' tr2 f2 o2) : o2 = o1 := by
  have hp := cachePath_eq (c := c2) hn
  rw [(runs_getCachedResult h1).2.2.1 rfl _ hp, (runs_getCachedResult h2).2.2.1 rfl _ hp]
  congr 1
  refine Classical.byContradiction fun hq => ?_
  obtain ⟨m, hm, he⟩ := (c20_add_list c list rt hrt hne fs fs' tr o h _ hq).2
  have e1 := congrArg spotOf he
  rw [spotOf_entry hn, spotOf_childPath hm, spotOf_results (cacheRoot_ne_nil c rt)] at e1
  have e2 := (spot_child_inj (spot_child_inj e1).1).1
  exact hd ((sameSpot_iff _ _).2 e2.symm)

/-! ### plugins -/

/-- C87: the executable found for a plugin is the one of that name at the spot of a directory of the search path. -/
theorem c87_plugin (isReg : Bytes → Bool) (plugin : Bytes) (paths : List Bytes) (path : Bytes)
    (hn : plugin ≠ b!"." ∧ plugin ≠ b!"..") (h : findInPath unixExtensions isReg plugin paths = .ok path) :
    ∃ d ∈ paths, ∃ p, LeadsTo d p ∧ LeadsTo path (p.child plugin) := by
  obtain ⟨h1, h2, b, a, e, -⟩ := (c44_find_iff _ _ _ _ _).1 h
  rw [c44_unix] at e
  have hm : path ∈ paths.map fun d => joinPath d plugin := by rw [e]; simp
  obtain ⟨d, hm', rfl⟩ := List.mem_map.1 hm
  exact ⟨d, hm', spotOf d, (leadsTo_iff _ _).2 rfl, (leadsTo_iff _ _).2 (spotOf_join ⟨h1, hn.1, hn.2, h2⟩).symm⟩

/-- C87: the search path written in one text: its entries are separated by colons; no text has no entries. -/
theorem c87_search_path (s : Bytes) (l : List Bytes) :
    splitList s = l ↔ (s = [] ∧ l = []) ∨ (s ≠ [] ∧ l ≠ [] ∧ (∀ d ∈ l, (58 : UInt8) ∉ d) ∧ s = joinWith b!":" l) := by
  unfold splitList
  constructor
  · rintro rfl
    split
    · exact .inl ⟨by assumption, rfl⟩
    · rename_i h
      exact .inr ⟨h, splitOn_ne_nil _ _, splitOn_pieces_no_sep _ _, (joinWith_splitOn _ _).symm⟩
  · rintro (⟨rfl, rfl⟩ | ⟨h1, h2, h3, h4⟩)
    · rfl
    · rw [if_neg h1]
      conv => lhs; rw [h4]
      exact splitOn_joinWith 58 l h2 h3

/-! ### configurations -/

theorem extPath_unique {f a t a' t' : Bytes} (h1 : f = a ++ 46 :: t) (h2 : (46 : UInt8) ∉ t) (g1 : f = a' ++ 46 :: t')
    (g2 : (46 : UInt8) ∉ t') : t = t' := by
  rw [h1] at g1
  rcases List.append_eq_append_iff.1 g1 with ⟨as, e1, e2⟩ | ⟨as, e1, e2⟩
  · cases as with
    | nil => simpa using e2
    | cons y as =>
      simp only [List.cons_append, List.cons.injEq] at e2
      exact absurd (by rw [e2.2]; simp) h2
  · cases as with
    | nil => simpa using e2.symm
    | cons y as =>
      simp only [List.cons_append, List.cons.injEq] at e2
      exact absurd (by rw [e2.2]; simp) g2

theorem extPath_cases (f : Bytes) :
    (∃ a t, f = a ++ 46 :: t ∧ (46 : UInt8) ∉ t ∧ (47 : UInt8) ∉ t ∧ extPath f = 46 :: t) ∨
      (extPath f = [] ∧ ∀ a t, f = a ++ 46 :: t → (47 : UInt8) ∈ t) := by
  have hd := List.takeWhile_append_dropWhile (p := fun c : UInt8 => decide (c ≠ 46 ∧ c ≠ 47)) (l := f.reverse)
  have ht : ∀ x ∈ f.reverse.takeWhile (fun c : UInt8 => decide (c ≠ 46 ∧ c ≠ 47)), x ≠ 46 ∧ x ≠ 47 := by
    intro x hx
    have := List.all_eq_true.1 (List.all_takeWhile (p := fun c : UInt8 => decide (c ≠ 46 ∧ c ≠ 47)) (l := f.reverse)) x hx
    simpa using this
  have hw : ∀ x r, f.reverse.dropWhile (fun c : UInt8 => decide (c ≠ 46 ∧ c ≠ 47)) = x :: r → x = 46 ∨ x = 47 := by
    intro x r e
    have := List.head_dropWhile_not (fun c : UInt8 => decide (c ≠ 46 ∧ c ≠ 47)) (l := f.reverse) (by rw [e]; simp)
    simp only [e, List.head_cons, decide_eq_false_iff_not] at this
    by_cases h1 : x = 46
    · exact .inl h1
    · exact .inr (Classical.byContradiction fun h2 => this ⟨h1, h2⟩)
  have hx : extPath f = match f.reverse.dropWhile (fun c : UInt8 => decide (c ≠ 46 ∧ c ≠ 47)) with
      | 46 :: _ => 46 :: (f.reverse.takeWhile (fun c : UInt8 => decide (c ≠ 46 ∧ c ≠ 47))).reverse
      | _ => [] := by
    unfold extPath
    have : f.reverse.drop (f.reverse.takeWhile (fun c : UInt8 => decide (c ≠ 46 ∧ c ≠ 47))).length =
        f.reverse.dropWhile (fun c : UInt8 => decide (c ≠ 46 ∧ c ≠ 47)) := by
      conv => lhs; arg 2; rw [← hd]
      exact List.drop_left
    simp only [this]
    rfl
  generalize f.reverse.takeWhile (fun c : UInt8 => decide (c ≠ 46 ∧ c ≠ 47)) = t at hd ht hx
  generalize f.reverse.dropWhile (fun c : UInt8 => decide (c ≠ 46 ∧ c ≠ 47)) = w at hd hw hx
  have hf : f = w.reverse ++ t.reverse := by
    rw [← List.reverse_append, hd, List.reverse_reverse]
  cases w with
  | nil =>
    refine .inr ⟨hx, fun a u e => ?_⟩
    have : (46 : UInt8) ∈ t := by
      have : (46 : UInt8) ∈ f := by rw [e]; simp
      rw [hf] at this; simpa using this
    exact absurd rfl (ht _ this).1
  | cons x r =>
    rcases hw x r rfl with rfl | rfl
    · refine .inl ⟨r.reverse, t.reverse, ?_, ?_, ?_, hx⟩
      · rw [hf]; simp
      · intro h; exact absurd rfl (ht _ (List.mem_reverse.1 h)).1
      · intro h; exact absurd rfl (ht _ (List.mem_reverse.1 h)).2
    · refine .inr ⟨hx, fun a u e => ?_⟩
      rw [hf, List.reverse_cons, List.append_assoc] at e
      rcases List.append_eq_append_iff.1 e with ⟨as, h1, h2⟩ | ⟨bs, h1, h2⟩
      · cases as with
        | nil => simp at h2
        | cons y as =>
          simp only [List.cons_append, List.nil_append, List.cons.injEq] at h2
          have : (46 : UInt8) ∈ t := by
            have : (46 : UInt8) ∈ t.reverse := by rw [h2.2]; simp
            exact List.mem_reverse.1 this
          exact absurd rfl (ht _ this).1
      · cases bs with
        | nil => simp at h2
        | cons y bs =>
          simp only [List.cons_append, List.cons.injEq] at h2
          rw [h2.2]; simp

/-- C87: the extension by which configuration files are chosen: the text from the last dot of the last part of the name on, if there is one. -/
theorem c87_extension (f e : Bytes) : extPath f = e ↔ HasExt f e := by
  rcases extPath_cases f with ⟨a, t, h1, h2, h3, h4⟩ | ⟨h1, h2⟩
  · constructor
    · rintro rfl
      exact .inl ⟨a, t, h1, h2, h3, h4⟩
    · rintro (⟨a', t', g1, g2, g3, g4⟩ | ⟨rfl, g⟩)
      · rw [h4, g4, ← extPath_unique h1 h2 g1 g2]
      · exact absurd (g a t h1) h3
  · constructor
    · rintro rfl
      exact .inr ⟨h1, h2⟩
    · rintro (⟨a', t', g1, g2, g3, g4⟩ | ⟨rfl, g⟩)
      · exact absurd (h2 a' t' g1) g3
      · exact h1

/-- C87: the files listed for a directory are, at the spot it leads to, those of the entries that are no directories and have one of the
extensions. -/
theorem c87_listed (fs : ConfFS) (dir : Bytes) (exts files : List Bytes) (l : List (Bytes × Bool)) (hl : fs.readDir dir = .ok l)
    (hc : ∀ e ∈ l, IsComp e.1) (h : confFiles fs dir exts = .ok files) (p : Spot) (hp : LeadsTo dir p) :
    (∀ f ∈ files, ∃ n, (n, false) ∈ l ∧ (∃ x ∈ exts, HasExt n x) ∧ LeadsTo f (p.child n)) ∧
    (∀ n, (n, false) ∈ l → ∀ x ∈ exts, HasExt n x → ∃ f ∈ files, LeadsTo f (p.child n)) := by
  unfold confFiles ConfFS.osReadDir at h
  simp only [hl] at h
  cases h
  rw [leadsTo_iff] at hp
  have hs : ∀ n b, (n, b) ∈ l → LeadsTo (joinPath dir n) (p.child n) := by
    intro n b hm
    rw [leadsTo_iff, spotOf_join (hc _ hm), hp]
  constructor
  · intro f hf
    rw [List.mem_flatMap] at hf
    obtain ⟨⟨n, b⟩, hm, hf⟩ := hf
    have hm' : (n, b) ∈ l := (sortBy_perm _ l).mem_iff.1 hm
    cases b with
    | true => simp at hf
    | false =>
      simp only [Bool.false_eq_true, if_false, List.mem_map, List.mem_filter, decide_eq_true_eq] at hf
      obtain ⟨e, ⟨he, hx⟩, rfl⟩ := hf
      exact ⟨n, hm', ⟨e, he, (c87_extension _ _).1 hx⟩, hs _ _ hm'⟩
  · intro n hn x hx he
    refine ⟨joinPath dir n, ?_, hs _ _ hn⟩
    rw [List.mem_flatMap]
    refine ⟨(n, false), (sortBy_perm _ l).mem_iff.2 hn, ?_⟩
    simp only [Bool.false_eq_true, if_false, List.mem_map, List.mem_filter, decide_eq_true_eq]
    exact ⟨x, ⟨hx, (c87_extension _ _).2 he⟩, trivial⟩

/-- C87: the folder with more plugins of a list is looked for beside its file: at the spot its directory leads to. -/
theorem c87_beside (file name : Bytes) (hn : IsComp name) (a b : Bytes) (hb : (47 : UInt8) ∉ b) (p : Spot) :
    (file = b → LeadsTo (joinPath (dirPath file) name) ⟨false, 0, [name]⟩) ∧
    (file = a ++ 47 :: b → LeadsTo (a ++ b!"/") p → LeadsTo (joinPath (dirPath file) name) (p.child name)) := by
  have key : ∀ u v : Bytes, 47 ∉ v → (u = [] ∨ ∃ w, u = w ++ b!"/") → dirPath (u ++ v) = cleanPath u := by
    intro u v hv hu
    have e : ((u ++ v).reverse.takeWhile (fun c => decide (c ≠ 47))) = v.reverse := by
      rw [List.reverse_append, List.takeWhile_append_of_pos (fun x hx => by
        simp only [ne_eq, decide_not, Bool.not_eq_true', decide_eq_false_iff_not]
        rintro rfl; exact hv (List.mem_reverse.1 hx))]
      rcases hu with rfl | ⟨w, rfl⟩ <;> simp
    unfold dirPath
    rw [e]
    simp
  constructor
  · rintro rfl
    have := key [] file hb (.inl rfl)
    rw [List.nil_append] at this
    rw [leadsTo_iff, this, spotOf_join hn, spotOf_clean]
    rfl
  · intro e hp
    have := key (a ++ b!"/") b hb (.inr ⟨a, rfl⟩)
    rw [List.append_assoc, List.singleton_append] at this
    rw [leadsTo_iff] at hp ⊢
    rw [e, this, spotOf_join hn, spotOf_clean, hp]

/-! ### cnitool -/

/-- C87: the absolute path `cnitool` makes of the namespace it is given leads where the text does, seen from the working directory. -/
theorem c87_absolute (cwd path abs : Bytes) (hd : cwd ≠ []) (h : absPath (some cwd) path = .ok abs) (p : Spot) :
    LeadsTo abs p ↔ (path.head? = some 47 ∧ LeadsTo path p) ∨ (path.head? ≠ some 47 ∧ LeadsTo (cwd ++ b!"/" ++ path) p) := by
  unfold absPath at h
  by_cases hr : path.head? = some 47
  · rw [if_pos (by simp [isRooted, hr])] at h
    cases h
    rw [leadsTo_iff, spotOf_clean]
    simp [hr, leadsTo_iff]
  · rw [if_neg (by simp [isRooted, hr])] at h
    simp only [Out.ok.injEq] at h
    subst h
    have : spotOf (joinPath cwd path) = spotOf (cwd ++ b!"/" ++ path) := by
      unfold joinPath
      rw [if_neg hd]
      split
      · rename_i e
        subst e
        rw [spotOf_clean, List.append_assoc, List.singleton_append, spotOf_append hd]
        rfl
      · rw [spotOf_clean, List.append_assoc, List.singleton_append]
    rw [leadsTo_iff, this]
    simp [hr, leadsTo_iff]

/-! ### Examples -/

/-- A spelling with dots, doubled slashes and a detour leads to the same spot; a relative text does not; below the root two dots do nothing. -/
example : SameSpot b!"/var/lib/cni" b!"//var/./tmp/../lib/cni/" ∧ ¬ SameSpot b!"/var/lib/cni" b!"var/lib/cni" ∧
    SameSpot b!"/../a" b!"/a" ∧ ¬ SameSpot b!"../a" b!"a" ∧ SameSpot [] b!"." ∧ SameSpot b!"a/../../b" b!"../b" := by
  simp only [sameSpot_iff]
  decide +kernel
example : LeadsTo b!"../../x/./y" ⟨false, 2, [b!"x", b!"y"]⟩ ∧ LeadsTo b!"/x/y/../z" ⟨true, 0, [b!"x", b!"z"]⟩ := by
  simp only [leadsTo_iff]
  decide +kernel

/-- The premises of `c87_spelling` and `c87_apart` are met. -/
example : Example.cfg.cacheDir ≠ [] ∧ SameSpot Example.cfg.cacheDir b!"/x/..//cache/" ∧
    CNIConfig.cachePath { Example.cfg with cacheDir := b!"/x/..//cache/" } b!"net" Example.rt = Example.cfg.cachePath b!"net" Example.rt ∧
    ¬ SameSpot (cacheRoot Example.cfg Example.rt) (cacheRoot {} {}) := by
  have h : SameSpot Example.cfg.cacheDir b!"/x/..//cache/" := by
    rw [sameSpot_iff]
    decide +kernel
  have hc : Example.cfg.cacheDir ≠ [] := by decide +kernel
  exact ⟨hc, h, cachePath_spelled hc (by decide) h _ _, by rw [sameSpot_iff]; decide +kernel⟩

/-- The file of an attachment when the cache directory is given by a relative text. -/
example : LeadsTo (entryPath { cacheDir := b!"../c/" } b!"net" { containerID := b!"id", ifName := b!"eth0" })
    ⟨false, 1, [b!"c", b!"results", b!"net-id-eth0"]⟩ := by
  rw [leadsTo_iff]
  decide +kernel

example : HasExt b!"10-net.conf.bak" b!".bak" ∧ HasExt b!"10-net" [] ∧ HasExt b!"a.d/x" [] ∧ ¬ HasExt b!"x.conf" [] := by
  simp only [← c87_extension]
  decide +kernel
/-- A listing: the directory is left out and so is the file with another extension. -/
example : (confFiles
    ⟨fun _ => .ok [(b!"20.conf", false), (b!"10.conflist", false), (b!"d.conf", true), (b!"x.bak", false)], fun _ => none⟩
    b!"/etc/cni/./net.d/" [b!".conf", b!".conflist"]).toOption = some [b!"/etc/cni/net.d/10.conflist", b!"/etc/cni/net.d/20.conf"] := by
  decide +kernel
example : splitList b!"/opt/cni/bin::/usr" = [b!"/opt/cni/bin", [], b!"/usr"] ∧ splitList [] = [] := by decide +kernel
/-- An empty entry of the search path is the working directory. -/
example : (findInPath unixExtensions (fun p => p = b!"bridge") b!"bridge" [b!"/opt", []]).toOption = some b!"bridge" ∧
    LeadsTo b!"bridge" (Spot.child ⟨false, 0, []⟩ b!"bridge") ∧ LeadsTo [] ⟨false, 0, []⟩ := by
  simp only [leadsTo_iff]
  decide +kernel
/-- The folder beside `/etc/cni/net.d/10-a.conflist`, and that beside a file at the root. -/
example : joinPath (dirPath b!"/etc/cni/net.d/10-a.conflist") b!"a" = b!"/etc/cni/net.d/a" ∧
    joinPath (dirPath b!"/10-a.conflist") b!"a" = b!"/a" ∧ LeadsTo (b!"/etc/cni/net.d" ++ b!"/") ⟨true, 0, [b!"etc", b!"cni", b!"net.d"]⟩ := by
  simp only [leadsTo_iff]
  decide +kernel
example : (absPath (some b!"/run") b!"netns/./a").toOption = some b!"/run/netns/a" ∧ (absPath (some b!"/run") []).toOption = some b!"/run" := by
  decide +kernel

end Verif
