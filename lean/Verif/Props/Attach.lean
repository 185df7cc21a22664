/- C21: the cached attachments. -/
import Verif.Props.History
import Verif.Spec.Attach

namespace Verif
open Spec
set_option linter.unusedSimpArgs false

variable {flt : Bool} {fs fs' : FS} {tr : Trace}

theorem resultsDir_eq (c : CNIConfig) : joinPath (c.getCacheDir {}) b!"results" = resultsDir c := by
  unfold joinPath resultsDir
  rw [if_neg (by rw [getCacheDir_eq]; exact cacheRoot_ne_nil _ _), if_neg (by decide), getCacheDir_eq]

theorem joinPath_resultsDir {c : CNIConfig} {n : Bytes} (h : IsComp n) : joinPath (resultsDir c) n = childPath (resultsDir c) n := by
  rw [joinPath_child (by unfold resultsDir; exact cleanPath_ne_nil _) h]
  unfold resultsDir
  rw [cleanPath_idem]

theorem attachmentOf_entryOf (cid : Bytes) (b : Option Bytes) :
    attachmentOf cid b = (b.bind entryOf).filter fun a => cid = [] ∨ a.containerID = cid := by
  cases b with
  | none => rfl
  | some b =>
    simp only [attachmentOf, Option.bind_some, entryOf]
    cases readCachedInfo b with
    | none => rfl
    | some i =>
      simp only [Option.bind_some]
      by_cases h1 : i.kind = cacheKind
      · rw [if_neg (by simpa using h1)]
        by_cases h2 : cid ≠ [] ∧ i.containerID ≠ cid
        · rw [if_pos h2]
          split
          · simp [Option.filter, h2.1, h2.2]
          · rfl
        · rw [if_neg h2]
          by_cases h3 : i.ifName = [] ∨ i.networkName = []
          · rw [if_pos h3, if_neg (by rintro ⟨_, ha, hb⟩; exact h3.elim ha hb)]; rfl
          · rw [if_neg h3, if_pos ⟨h1, fun h => h3 (.inl h), fun h => h3 (.inr h)⟩]
            have : cid = [] ∨ i.containerID = cid := by
              by_cases h : cid = []
              · exact .inl h
              · exact .inr (Classical.byContradiction fun h' => h2 ⟨h, h'⟩)
            simp [Option.filter, this]
      · rw [if_pos h1, if_neg (by rintro ⟨ha, _⟩; exact h1 ha)]
        simp [Option.filter]

/-- What the loop makes of one name. -/
def pick (c : CNIConfig) (fs : FS) (cid n : Bytes) : Option Attachment :=
  if cid ≠ [] ∧ fileNameMatches cid n = false then none
  else (attachmentIn c fs n).filter fun a => cid = [] ∨ a.containerID = cid

theorem attachmentLoop_looks {dir cid : Bytes} {names : List Bytes} : (attachmentLoop dir cid names).All fun a => ∃ p, a = .readFile p := by
  induction names with
  | nil => trivial
  | cons n names ih =>
    unfold attachmentLoop
    split
    · exact ih
    · exact ⟨⟨_, rfl⟩, fun r => ih.bind fun l => trivial⟩

theorem attachmentLoop_runs {c : CNIConfig} {cid : Bytes} {names : List Bytes} (hn : ∀ n ∈ names, IsComp n) :
    ∀ {tr : Trace} {fs fs' : FS} {o : Out (List Attachment)}, Runs false (attachmentLoop (resultsDir c) cid names) fs tr fs' o →
    o = .ok (names.filterMap (pick c fs cid)) := by
  induction names with
  | nil => intro tr fs fs' o h; obtain ⟨-, -, rfl⟩ := runs_done.1 h; rfl
  | cons n names ih =>
    intro tr fs fs' o h
    unfold attachmentLoop at h
    split at h
    · rename_i hm
      rw [ih (fun x hx => hn x (by simp [hx])) h]
      simp [List.filterMap_cons, pick, hm]
    · rename_i hm
      obtain ⟨r, fs1, tr', hs, rfl, hr⟩ := runs_op.1 h
      cases hs with
      | readFileFails _ hf => cases hf
      | readFile =>
        obtain ⟨tr1, tr2, fs1, o1, rfl, h1, h2⟩ := runs_bind.1 hr
        have := ih (fun x hx => hn x (by simp [hx])) h1
        subst this
        obtain ⟨-, -, rfl⟩ := runs_done.1 h2
        rw [joinPath_resultsDir (hn n (by simp)), attachmentOf_entryOf]
        have he : (fs (childPath (resultsDir c) n)).bind entryOf = attachmentIn c fs n := rfl
        simp only [List.filterMap_cons, pick, hm, if_false, he]
        cases hf : (attachmentIn c fs n).filter (fun a => decide (cid = [] ∨ a.containerID = cid)) <;> simp_all

theorem getCachedAttachments_looks {c : CNIConfig} {cid : Bytes} :
    (c.getCachedAttachments cid).All fun a => a.writes = none ∧ a.isExec = false := by
  unfold CNIConfig.getCachedAttachments
  refine ⟨⟨rfl, rfl⟩, fun r => ?_⟩
  cases r with
  | error b => cases b <;> trivial
  | ok names => exact attachmentLoop_looks.mono fun a ⟨p, hp⟩ => by subst hp; exact ⟨rfl, rfl⟩

theorem getCachedAttachments_runs {c : CNIConfig} {cid : Bytes} {o : Out (List Attachment)}
    (h : Runs false (c.getCachedAttachments cid) fs tr fs' o) :
    fs' = fs ∧ tr.execs = [] ∧ ∃ names : List Bytes, names.Pairwise (fun a b => Bytes.lt a b = true) ∧ (∀ n ∈ names, IsComp n) ∧
      (∀ n, IsComp n → attachmentIn c fs n ≠ none → n ∈ names) ∧ o = .ok (names.filterMap (pick c fs cid)) := by
  have hl := getCachedAttachments_looks (c := c) (cid := cid)
  refine ⟨(hl.mono fun _ h => h.1).readonly h, (hl.mono fun _ h => h.2).noExec h, ?_⟩
  unfold CNIConfig.getCachedAttachments at h
  obtain ⟨r, fs1, tr', hs, rfl, hr⟩ := runs_op.1 h
  have hfile : ∀ n, IsComp n → attachmentIn c fs n ≠ none → fs (joinPath (joinPath (c.getCacheDir {}) b!"results") n) ≠ none := by
    intro n hn ha h0
    rw [resultsDir_eq, joinPath_resultsDir hn] at h0
    unfold attachmentIn at ha
    rw [h0] at ha
    exact ha rfl
  cases hs with
  | readDirFails _ _ hf => cases hf
  | readDirMissing _ hm =>
    obtain ⟨-, -, rfl⟩ := runs_done.1 hr
    exact ⟨[], .nil, by simp, fun n hn ha => absurd (hm n hn) (hfile n hn ha), rfl⟩
  | readDir _ ns hls =>
    obtain ⟨hnd, hcomp, hall⟩ := hls
    have hp := sortStrings_perm ns
    have hcs : ∀ n ∈ sortStrings ns, IsComp n := fun n hn => hcomp n (hp.mem_iff.1 hn)
    refine ⟨sortStrings ns, ?_, hcs, fun n hn ha => hp.mem_iff.2 (hall n hn (hfile n hn ha)), ?_⟩
    · have h1 := sortStrings_sorted ns
      have h2 : (sortStrings ns).Nodup := hp.nodup_iff.2 hnd
      refine (h1.and h2).imp ?_
      rintro a b ⟨hle, hne⟩
      rcases Bytes.lt_trichotomy a b with h | h | h
      · exact h
      · exact absurd h hne
      · simp [bytesLe, h] at hle
    · simp only at hr
      rw [resultsDir_eq] at hr
      exact attachmentLoop_runs hcs hr

theorem listed_of_pick {c : CNIConfig} {keep : Attachment → Prop} {names : List Bytes} {f : Bytes → Option Attachment}
    (hs : names.Pairwise (fun a b => Bytes.lt a b = true)) (hc : ∀ n ∈ names, IsComp n)
    (hall : ∀ n, IsComp n → attachmentIn c fs n ≠ none → n ∈ names)
    (hf : ∀ n a, IsComp n → (f n = some a ↔ attachmentIn c fs n = some a ∧ keep a)) :
    Listed c fs keep (names.filter fun n => (f n).isSome) (names.filterMap f) := by
  refine ⟨hs.filter _, ?_, ?_⟩
  · intro n
    rw [List.mem_filter, Option.isSome_iff_exists]
    constructor
    · rintro ⟨hn, a, ha⟩
      exact ⟨hc n hn, a, (hf n a (hc n hn)).1 ha⟩
    · rintro ⟨hn, a, ha⟩
      exact ⟨hall n hn (by rw [ha.1]; simp), a, (hf n a hn).2 ha⟩
  · clear hs hall
    induction names with
    | nil => rfl
    | cons n names ih =>
      have ih := ih fun x hx => hc x (by simp [hx])
      cases hfn : f n with
      | none => simpa [List.filterMap_cons, List.filter_cons, hfn] using ih
      | some a =>
        have := ((hf n a (hc n (by simp))).1 hfn).1
        simpa [List.filterMap_cons, List.filter_cons, hfn, this] using ih

/-- Without a container ID every attachment in the results directory is returned, in file-name order; files that are not cache
entries are skipped. Nothing is changed or executed. -/
theorem c21_all (c : CNIConfig) (fs fs' : FS) (tr : Trace) (o : Out (List Attachment))
    (h : Runs false (c.getCachedAttachments []) fs tr fs' o) :
    fs' = fs ∧ tr.execs = [] ∧ ∃ names l, o = .ok l ∧ Listed c fs (fun _ => True) names l := by
  obtain ⟨h1, h2, names, hs, hc, hall, rfl⟩ := getCachedAttachments_runs h
  refine ⟨h1, h2, _, _, rfl, listed_of_pick hs hc hall ?_⟩
  intro n a _
  simp [pick]

theorem fileNameMatches_of {net cid ifn : Bytes} (h1 : net ≠ []) (h2 : net.head? ≠ some 45) (h3 : ifn ≠ []) :
    fileNameMatches cid (net ++ b!"-" ++ cid ++ b!"-" ++ ifn) = true := by
  have he : net ++ b!"-" ++ cid ++ b!"-" ++ ifn = net ++ (b!"-" ++ cid ++ b!"-") ++ ifn := by simp
  obtain ⟨i, hi, hle⟩ := indexOf_le (sub := b!"-" ++ cid ++ b!"-") (pre := net) (post := ifn)
  unfold fileNameMatches
  simp only
  rw [he, hi]
  have hlen : 0 < ifn.length := List.length_pos_iff.2 h3
  have hpos : 0 < i := by
    cases i with
    | succ i => omega
    | zero =>
      exfalso
      obtain ⟨pre, post, hp, hl⟩ := indexOf_some hi
      cases net with
      | nil => exact h1 rfl
      | cons x net =>
        have : pre = [] := List.length_eq_zero_iff.1 hl
        subst this
        simp only [List.cons_append, List.nil_append, List.cons.injEq] at hp
        exact h2 (by simp [hp.1])
  simp only [Bool.and_eq_true, decide_eq_true_eq, List.length_append, List.length_cons]
  refine ⟨hpos, ?_⟩
  omega

/-- With a container ID exactly the attachments of that container are returned, in file-name order, if the entries are in
the files where ADD puts them. -/
theorem c21_container (c : CNIConfig) (cid : Bytes) (hcid : cid ≠ []) (fs fs' : FS) (hw : WellNamed c fs) (tr : Trace)
    (o : Out (List Attachment)) (h : Runs false (c.getCachedAttachments cid) fs tr fs' o) :
    fs' = fs ∧ tr.execs = [] ∧ ∃ names l, o = .ok l ∧ Listed c fs (fun a => a.containerID = cid) names l := by
  obtain ⟨h1, h2, names, hs, hc, hall, rfl⟩ := getCachedAttachments_runs h
  refine ⟨h1, h2, _, _, rfl, listed_of_pick hs hc hall ?_⟩
  intro n a hn
  unfold pick
  constructor
  · intro hp
    split at hp
    · cases hp
    · simp only [Option.filter_eq_some_iff, hcid, false_or, decide_eq_true_eq] at hp
      exact hp
  · rintro ⟨ha, rfl⟩
    obtain ⟨net, ifn, rfl, n1, n2, n3⟩ := hw n a hn ha
    rw [fileNameMatches_of n1 n2 n3, if_neg (by simp), ha]
    simp [Option.filter]


/-- Strictly sorted lists with the same members are equal. -/
theorem sorted_ext : ∀ (n1 n2 : List Bytes), n1.Pairwise (fun a b => Bytes.lt a b = true) → n2.Pairwise (fun a b => Bytes.lt a b = true) →
    (∀ n, n ∈ n1 ↔ n ∈ n2) → n1 = n2 := by
  intro n1
  induction n1 with
  | nil => intro n2 _ _ h; cases n2 with
    | nil => rfl
    | cons x n2 => exact absurd ((h x).2 (by simp)) (by simp)
  | cons x n1 ih =>
    intro n2 p1 p2 h
    cases n2 with
    | nil => exact absurd ((h x).1 (by simp)) (by simp)
    | cons y n2 =>
      obtain ⟨q1, p1⟩ := List.pairwise_cons.1 p1
      obtain ⟨q2, p2'⟩ := List.pairwise_cons.1 p2
      have hxy : x = y := by
        rcases List.mem_cons.1 ((h x).1 (by simp)) with e | e
        · exact e
        · rcases List.mem_cons.1 ((h y).2 (by simp)) with e' | e'
          · exact e'.symm
          · have a1 := q1 y e'
            have a2 := q2 x e
            rw [Bytes.lt_asymm a1] at a2
            cases a2
      subst hxy
      congr 1
      refine ih n2 p1 p2' fun n => ?_
      constructor
      · intro hn
        rcases List.mem_cons.1 ((h n).1 (by simp [hn])) with rfl | e
        · exact absurd (q1 _ hn) (by simp [Bytes.lt_irrefl])
        · exact e
      · intro hn
        rcases List.mem_cons.1 ((h n).2 (by simp [hn])) with rfl | e
        · exact absurd (q2 _ hn) (by simp [Bytes.lt_irrefl])
        · exact e

/-- A listing is determined by what it lists. -/
theorem Spec.Listed.unique {c : CNIConfig} {keep : Attachment → Prop} {n1 n2 : List Bytes} {l1 l2 : List Attachment}
    (h1 : Listed c fs keep n1 l1) (h2 : Listed c fs keep n2 l2) : l1 = l2 := by
  have hn : n1 = n2 := sorted_ext n1 n2 h1.sorted h2.sorted fun n => by rw [h1.mem, h2.mem]
  subst hn
  have := h1.same.symm.trans h2.same
  have := congrArg (List.filterMap id) this
  simpa [List.filterMap_map] using this

theorem Spec.Listed.filter {c : CNIConfig} {names : List Bytes} {l : List Attachment} (h : Listed c fs (fun _ => True) names l)
    (p : Attachment → Bool) : ∃ names', Listed c fs (fun a => p a = true) names' (l.filter p) := by
  refine ⟨names.filter fun n => match attachmentIn c fs n with | some a => p a | none => false, h.sorted.filter _, fun n => ?_, ?_⟩
  · rw [List.mem_filter, h.mem]
    constructor
    · rintro ⟨⟨h1, a, h2, -⟩, h3⟩
      rw [h2] at h3
      exact ⟨h1, a, h2, h3⟩
    · rintro ⟨h1, a, h2, h3⟩
      exact ⟨⟨h1, a, h2, trivial⟩, by rw [h2]; exact h3⟩
  · have hs := h.same
    clear h
    induction names generalizing l with
    | nil => cases l with
      | nil => rfl
      | cons => simp at hs
    | cons n names ih =>
      cases l with
      | nil => simp at hs
      | cons a l =>
        simp only [List.map_cons, List.cons.injEq] at hs
        have := ih hs.2
        simp only [List.filter_cons, hs.1]
        cases p a <;> simp [hs.1, this]

/-- The attachments of a container are those among all the attachments that have its ID. -/
theorem c21_filter (c : CNIConfig) (cid : Bytes) (hcid : cid ≠ []) (fs fs1 fs2 : FS) (hw : WellNamed c fs) (tr1 tr2 : Trace)
    (o1 o2 : Out (List Attachment)) (h1 : Runs false (c.getCachedAttachments []) fs tr1 fs1 o1)
    (h2 : Runs false (c.getCachedAttachments cid) fs tr2 fs2 o2) :
    ∃ l, o1 = .ok l ∧ o2 = .ok (l.filter fun a => a.containerID = cid) := by
  obtain ⟨-, -, n1, l1, rfl, hl1⟩ := c21_all c fs fs1 tr1 o1 h1
  obtain ⟨-, -, n2, l2, rfl, hl2⟩ := c21_container c cid hcid fs fs2 hw tr2 o2 h2
  obtain ⟨n3, hl3⟩ := hl1.filter fun a => decide (a.containerID = cid)
  refine ⟨l1, rfl, ?_⟩
  simp only [decide_eq_true_eq] at hl3
  rw [hl3.unique hl2]

/-! ### entries are where ADD puts them -/

theorem childPath_results {c : CNIConfig} {n : Bytes} : childPath (resultsDir c) n = resultsDir c ++ 47 :: n := by
  have hr : IsComp b!"results" := by unfold IsComp; decide
  have h1 : resultsDir c = childPath (cleanPath (cacheRoot c {})) b!"results" := by
    rw [← joinPath_child (cacheRoot_ne_nil _ _) hr]
    unfold joinPath resultsDir
    rw [if_neg (cacheRoot_ne_nil _ _), if_neg (by decide)]
  have hmem : (115 : UInt8) ∈ resultsDir c := by
    rw [h1]
    unfold childPath
    split
    · simp
    · split <;> simp
  unfold childPath
  rw [if_neg (by intro h; rw [h] at hmem; revert hmem; decide), if_neg (by intro h; rw [h] at hmem; revert hmem; decide)]

theorem entryPath_results {c : CNIConfig} {name : Bytes} {rt : RuntimeConf} :
    entryPath c name rt = cleanPath (cacheRoot c rt ++ b!"/results") ++ 47 :: cacheFileName name rt.containerID rt.ifName := by
  have h1 : cacheRoot c rt = cacheRoot { cacheDir := cacheRoot c rt } {} := by
    have := cacheRoot_ne_nil c rt
    generalize cacheRoot c rt = d at this ⊢
    unfold cacheRoot
    rw [if_pos this]
  unfold entryPath
  have := childPath_results (c := { cacheDir := cacheRoot c rt }) (n := cacheFileName name rt.containerID rt.ifName)
  unfold resultsDir at this
  rw [← h1] at this
  exact this

theorem split_last {sep : UInt8} {a b a' b' : Bytes} (h : a ++ sep :: b = a' ++ sep :: b') (hb : sep ∉ b) (hb' : sep ∉ b') :
    a = a' ∧ b = b' := by
  induction a generalizing a' with
  | nil =>
    cases a' with
    | nil => simpa using h
    | cons x a' =>
      simp only [List.nil_append, List.cons_append, List.cons.injEq] at h
      exact absurd (h.2 ▸ by simp : sep ∈ b) hb
  | cons x a ih =>
    cases a' with
    | nil =>
      simp only [List.nil_append, List.cons_append, List.cons.injEq] at h
      exact absurd (h.2 ▸ by simp : sep ∈ b') hb'
    | cons y a' =>
      simp only [List.cons_append, List.cons.injEq] at h
      obtain ⟨h1, h2⟩ := ih h.2
      exact ⟨by rw [h.1, h1], h2⟩

/-- An entry path that is in the results directory has the entry's name. -/
theorem entryPath_child {c c2 : CNIConfig} {name n : Bytes} {rt : RuntimeConf} (hp : PlainNames name rt) (hn : 47 ∉ n)
    (h : childPath (resultsDir c2) n = entryPath c name rt) : n = cacheFileName name rt.containerID rt.ifName := by
  rw [childPath_results, entryPath_results] at h
  exact (split_last h hn (cacheFileName_comp hp.name.2 hp.cid.2 hp.ifn.2).2.2.2).2

theorem validName_ascii {s : Bytes} (h : ValidName s) : sanitize s = s := by
  obtain ⟨c, r, rfl, hc, hr⟩ := h
  have ha : ∀ x, Alnum x → x < 0x80 := by
    intro x hx
    unfold Alnum at hx
    rcases hx with h | h | h <;> exact Nat.lt_of_le_of_lt (UInt8.le_iff_toNat_le.1 h.2) (by decide)
  refine sanitize_of_isUtf8 (isUtf8_of_ascii fun x hx => ?_)
  rcases List.mem_cons.1 hx with rfl | hx
  · exact ha _ hc
  · rcases hr x hx with h | rfl | rfl | rfl
    · exact ha _ h
    · decide
    · decide
    · decide

/-- What an entry written by ADD describes. -/
theorem entryOf_entry {result : Option Result} {config name : Bytes} {rt : RuntimeConf} {info : CachedInfo} (hrt : rt.OK)
    (h : cachedInfoOf result config name rt = some info) (hcap : ∀ kv ∈ rt.capArgs, InRange kv.2) (hpl : PlainNames name rt) :
    ∃ caps, Json.toAnyMembers (Json.cleanMembers rt.capArgs) = some caps ∧
    entryOf info.json.print = some ⟨sanitize rt.containerID, sanitize name, sanitize rt.ifName, config, sanitize rt.netNS,
      rt.args.map sanitizePair, GoMap.ofList caps⟩ := by
  obtain ⟨caps, hc, hr⟩ := readCachedInfo_entry hrt h hcap
  refine ⟨caps, hc, ?_⟩
  unfold entryOf
  rw [hr]
  simp only [Option.bind_some]
  rw [if_pos ⟨rfl, by simp only [ne_eq, sanitize_ne_nil]; exact hpl.ifn.1, by simp only [ne_eq, sanitize_ne_nil]; exact hpl.name.1⟩]
  by_cases ha : rt.args = []
  · simp [ha]
  · simp [ha]

theorem validName_head {s : Bytes} (h : ValidName s) : s.head? ≠ some 45 := by
  obtain ⟨c, r, rfl, hc, hr⟩ := h
  intro he
  simp only [List.head?_cons, Option.some.injEq] at he
  subst he
  unfold Alnum at hc
  revert hc
  decide

/-- A property of the entries and their file names is kept by the operations if it holds of what ADD stores. -/
theorem named_step {P : Bytes → Attachment → Prop} {c : CNIConfig} {op : ApiOp} {o : Out Reply} (hp : op.Proper)
    (hl : ∀ c l rt, op = .add c l rt → l.plugins ≠ [])
    (hP : ∀ a : Attachment, op.added ≠ none → ValidName op.name → ValidName op.rt.containerID → PlainNames op.name op.rt →
      a.network = op.name → a.containerID = op.rt.containerID → a.ifName = sanitize op.rt.ifName →
      P (cacheFileName op.name op.rt.containerID op.rt.ifName) a)
    (h : Runs false op.call fs tr fs' o) (hw : ∀ n a, IsComp n → attachmentIn c fs n = some a → P n a) :
    ∀ n a, IsComp n → attachmentIn c fs' n = some a → P n a := by
  have keep : (∀ q, fs' q ≠ fs q → fs' q = none) → ∀ n a, IsComp n → attachmentIn c fs' n = some a → P n a := by
    intro hk n a hn ha
    refine hw n a hn ?_
    unfold attachmentIn at ha ⊢
    by_cases he : fs' (childPath (resultsDir c) n) = fs (childPath (resultsDir c) n)
    · rw [he] at ha; exact ha
    · rw [hk _ he] at ha; cases ha
  have put : ∀ (c2 : CNIConfig) (name conf : Bytes) (rt : RuntimeConf) (r : Option Result) (info : CachedInfo), op.added ≠ none →
      op.name = name → op.rt = rt → ValidName name → ValidName rt.containerID →
      PlainNames name rt → rt.OK → (∀ kv ∈ rt.capArgs, InRange kv.2) → cachedInfoOf r conf name rt = some info →
      fs' = fs.set (entryPath c2 name rt) (some info.json.print) → ∀ n a, IsComp n → attachmentIn c fs' n = some a → P n a := by
    intro c2 name conf rt r info had hnm hrtm v1 v2 hpl hrt hcap hi hfs n a hn ha
    by_cases he : childPath (resultsDir c) n = entryPath c2 name rt
    · have hnn := entryPath_child hpl hn.2.2.2 he
      unfold attachmentIn at ha
      obtain ⟨caps, -, hent⟩ := entryOf_entry hrt hi hcap hpl
      rw [hfs, he, FS.set_same, Option.bind_some, hent] at ha
      cases ha
      subst hnm hrtm
      rw [hnn]
      exact hP _ had v1 v2 hpl (validName_ascii v1) (validName_ascii v2) rfl
    · refine hw n a hn ?_
      unfold attachmentIn at ha ⊢
      rw [hfs, FS.set_other _ _ he] at ha
      exact ha
  cases op with
  | add c2 l rt =>
    obtain ⟨o', h, h1, h2⟩ := runs_reply h
    rcases addNetworkList_plain hp.ok hp.names h with ⟨rfl, hno⟩ | ⟨r, info, rfl, hi, hfs, hwt⟩
    · exact hw
    · have hx : tr.execs ≠ [] := by
        obtain ⟨rs, hch, hok, -⟩ := addNetworkList_runs hp.ok h
        have hlen := (hok _ rfl).1
        have hpos := List.length_pos_iff.2 (hl _ _ _ rfl)
        cases hrs : rs with
        | nil => rw [hrs] at hlen; simp at hlen; omega
        | cons r0 rs' =>
          obtain ⟨e, he, -⟩ := hch.results 0 r0 (by rw [hrs]; rfl)
          intro hn; rw [hn] at he; simp at he
      obtain ⟨rs, -, -, -, hval, -⟩ := addNetworkList_runs hp.ok h
      exact put c2 l.name _ rt r info (by simp [ApiOp.added]) rfl rfl (hval hx).2.1 (hval hx).1 hp.names hp.ok (fun kv hkv => (hp.caps kv hkv).2) hi hfs
  | addNetwork c2 n rt =>
    obtain ⟨o', h, h1, h2⟩ := runs_reply h
    rcases addNetwork_plain hp.ok h with ⟨rfl, hno⟩ | ⟨r, info, rfl, hi, hfs, hwt⟩
    · exact hw
    · obtain ⟨rs, hch, hok, -, hval, -⟩ := addNetwork_runs hp.ok h
      have hx : tr.execs ≠ [] := by
        have := hok r rfl
        obtain ⟨e, he, -⟩ := hch.results 0 r (by rw [this]; rfl)
        intro hn; rw [hn] at he; simp at he
      exact put c2 n.network.name _ rt (some r) info (by simp [ApiOp.added]) rfl rfl (hval hx).2.1 (hval hx).1 hp.names hp.ok (fun kv hkv => (hp.caps kv hkv).2) hi hfs
  | del c2 l rt =>
    obtain ⟨o', h, h1, h2⟩ := runs_reply h
    exact keep fun q hq => (c14_del_files c2 l rt hp.ok hp.names fs fs' tr _ h q hq).2.1
  | delNetwork c2 n rt =>
    obtain ⟨o', h, h1, h2⟩ := runs_reply h
    obtain ⟨-, -, -, hfr, hrm⟩ := c14_del_network c2 n rt hp.ok hp.names fs fs' tr _ h
    exact keep fun q hq => (hfr q hq).2.1
  | check c2 l rt =>
    obtain ⟨o', h, h1, h2⟩ := runs_reply h
    obtain ⟨rfl, -⟩ := c15_check_list c2 l rt hp.ok _ _ _ _ h
    exact hw
  | checkNetwork c2 n rt =>
    obtain ⟨o', h, h1, h2⟩ := runs_reply h
    obtain ⟨rfl, -⟩ := c15_check_network c2 n rt hp.ok _ _ _ _ h
    exact hw
  | cachedResult c2 l rt =>
    obtain ⟨o', h, h1, h2⟩ := runs_reply h
    obtain ⟨rfl, -⟩ := runs_getCachedResult h
    exact hw
  | cachedConfig c2 l rt =>
    obtain ⟨o', h, h1, h2⟩ := runs_reply h
    obtain ⟨rfl, -⟩ := runs_getCachedConfig h
    exact hw

/-- The operations leave the entries well named: those of ADDs with at least one plugin, and everything else. -/
theorem wellNamed_step {c : CNIConfig} {op : ApiOp} {o : Out Reply} (hp : op.Proper) (hl : ∀ c l rt, op = .add c l rt → l.plugins ≠ [])
    (h : Runs false op.call fs tr fs' o) (hw : WellNamed c fs) : WellNamed c fs' := by
  refine named_step hp hl (fun a _ v1 v2 hpl h1 h2 h3 => ?_) h hw
  exact ⟨op.name, op.rt.ifName, by rw [h2]; rfl, hpl.name.1, validName_head v1, hpl.ifn.1⟩

/-- A cache populated through the API is well named: any history of operations keeps it so. -/
theorem c21_history (c : CNIConfig) (h : List (ApiOp × Out Reply)) (fs fs' : FS) (hh : History h fs fs') (hp : ∀ x ∈ h, x.1.Proper)
    (hl : ∀ x ∈ h, ∀ c l rt, x.1 = .add c l rt → l.plugins ≠ []) (h0 : WellNamed c fs) : WellNamed c fs' := by
  induction hh with
  | nil => exact h0
  | cons h1 h2 ih =>
    refine ih (fun x hx => hp x (by simp [hx])) (fun x hx => hl x (by simp [hx])) ?_
    exact wellNamed_step (hp _ (List.mem_cons_self ..)) (hl _ (List.mem_cons_self ..)) h1 h0

/-- An attachment that was added, and whose entry has not changed since, is listed under its container. (If the entry is in the
directory the listing looks at, which does not take the deprecated per-call setting into account.) -/
theorem c21_added (c : CNIConfig) (list : NetConfList) (rt : RuntimeConf) (hrt : rt.OK) (hcap : ∀ kv ∈ rt.capArgs, InRange kv.2)
    (hdir : cacheRoot c rt = cacheRoot c {}) (r : Result) (fs0 fs1 fs2 fs3 : FS) (tr0 tr : Trace)
    (hadd : Runs flt (c.addNetworkList list rt) fs0 tr0 fs1 (.ok (some r)))
    (hkeep : fs2 (entryPath c list.name rt) = fs1 (entryPath c list.name rt)) (o : Out (List Attachment))
    (h : Runs false (c.getCachedAttachments rt.containerID) fs2 tr fs3 o) (hw : WellNamed c fs2) :
    ∃ l a, o = .ok l ∧ a ∈ l ∧ a.containerID = rt.containerID ∧ a.network = list.name ∧ a.ifName = sanitize rt.ifName ∧
      a.config = list.bytes ∧ a.netNS = sanitize rt.netNS ∧ a.cniArgs = rt.args.map fun kv => (sanitize kv.1, sanitize kv.2) := by
  obtain ⟨rs, hch, hok, -, hval, -⟩ := addNetworkList_runs hrt hadd
  have hx : tr0.execs ≠ [] := by
    have := (hok _ rfl).2
    obtain ⟨i, hi⟩ := List.mem_iff_getElem?.1 (List.mem_of_getLast? this.symm)
    obtain ⟨e, he, -⟩ := hch.results i r hi
    intro hn; rw [hn] at he; simp at he
  obtain ⟨v1, v2, -⟩ := hval hx
  obtain ⟨-, hpl, info, hi, hfs⟩ := addNetworkList_stored hrt hadd
  obtain ⟨caps, -, hent⟩ := entryOf_entry hrt hi hcap hpl
  obtain ⟨-, -, names, l, rfl, hl⟩ := c21_container c _ hpl.cid.1 fs2 fs3 hw tr o h
  have hpath : childPath (resultsDir c) (cacheFileName list.name rt.containerID rt.ifName) = entryPath c list.name rt := by
    unfold entryPath resultsDir
    rw [hdir]; rfl
  have hat : attachmentIn c fs2 (cacheFileName list.name rt.containerID rt.ifName) = entryOf info.json.print := by
    unfold attachmentIn
    rw [hpath, hkeep, hfs, FS.set_same]; rfl
  rw [hent] at hat
  have hm : some _ ∈ names.map (attachmentIn c fs2) := List.mem_map.2 ⟨_, (hl.mem _).2
    ⟨cacheFileName_comp hpl.name.2 hpl.cid.2 hpl.ifn.2, _, hat, validName_ascii v1⟩, hat⟩
  rw [hl.same, List.mem_map] at hm
  obtain ⟨a, ha, he⟩ := hm
  cases he
  exact ⟨l, _, rfl, ha, validName_ascii v1, validName_ascii v2, rfl, rfl, rfl, rfl⟩

/-! ### examples -/

theorem lists_single {dir n : Bytes} {b : Option Bytes} (hd : dir ≠ []) (hn : IsComp n) :
    FS.Lists (FS.set (fun _ => none) (joinPath dir n) b) dir [n] := by
  refine ⟨by simp, by simpa using hn, fun m hm h => ?_⟩
  by_cases he : joinPath dir m = joinPath dir n
  · rw [joinPath_child hd hm, joinPath_child hd hn] at he
    simp [childPath_inj he]
  · rw [FS.set_other _ _ he] at h
    exact absurd rfl h

/-- The cache directory of the examples holds one entry. -/
theorem Example.lists (b : Option Bytes) : FS.Lists (FS.set Example.noFiles b!"/cache/results/net-c1-eth0" b) b!"/cache/results"
    [b!"net-c1-eth0"] :=
  lists_single (dir := b!"/cache/results") (n := b!"net-c1-eth0") (by decide) (by unfold IsComp; decide)

/-- An empty cache is well named; so is one with an entry written by ADD. -/
example : WellNamed Example.cfg Example.noFiles := fun n a _ h => by cases h
example : WellNamed Example.cfg (FS.set Example.noFiles b!"/cache/results/net-c1-eth0" (some Example.entry)) := by
  intro n a hn h
  have hd : resultsDir Example.cfg = b!"/cache/results" := by decide +kernel
  unfold attachmentIn at h
  rw [hd] at h
  by_cases he : childPath b!"/cache/results" n = b!"/cache/results/net-c1-eth0"
  · have hnn : n = b!"net-c1-eth0" := childPath_inj (he.trans (by decide +kernel : _ = childPath b!"/cache/results" b!"net-c1-eth0"))
    rw [he, FS.set_same] at h
    have hc : (entryOf Example.entry).map (·.containerID) = some b!"c1" := by decide +kernel
    rw [Option.bind_some] at h
    rw [h] at hc
    simp only [Option.map_some, Option.some.injEq] at hc
    exact ⟨b!"net", b!"eth0", by rw [hnn, hc]; decide, by decide, by decide, by decide⟩
  · rw [FS.set_other _ _ he] at h
    cases h

/-- Listing that cache by container, and by another container. -/
example : ∃ tr fs' o, Runs false (Example.cfg.getCachedAttachments b!"c1")
      (FS.set Example.noFiles b!"/cache/results/net-c1-eth0" (some Example.entry)) tr fs' o ∧
    o.toOption.map (List.map fun a => (a.network, a.containerID, a.ifName)) = some [(b!"net", b!"c1", b!"eth0")] := by
  obtain ⟨tr, fs', o, h1, h2⟩ := Prog.interp_exists (flt := false) (find := Example.find) (exec := Example.good)
    (fs := FS.set Example.noFiles b!"/cache/results/net-c1-eth0" (some Example.entry))
    (p := attachmentLoop b!"/cache/results" b!"c1" [b!"net-c1-eth0"])
    (fun _ _ o => o.toOption.map (List.map fun a => (a.network, a.containerID, a.ifName)))
    (b := some [(b!"net", b!"c1", b!"eth0")]) (by decide +kernel)
  have hd : joinPath (Example.cfg.getCacheDir {}) b!"results" = b!"/cache/results" := by decide +kernel
  have hl := Example.lists (some Example.entry)
  rw [← hd] at h1 hl
  exact ⟨_, fs', o, .op (.readDir _ _ [b!"net-c1-eth0"] hl) h1, h2⟩

end Verif
