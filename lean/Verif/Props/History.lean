/- C18, C19: the cache as a map from attachments. -/
import Verif.Props.CacheUse
import Verif.Spec.Cache

namespace Verif
open Spec
set_option linter.unusedSimpArgs false

/-! ### C19 -/

theorem split_last_dash {a b a' b' : Bytes} (h : a ++ 45 :: b = a' ++ 45 :: b') (hb : 45 ∉ b) (hb' : 45 ∉ b') : a = a' ∧ b = b' := by
  induction a generalizing a' with
  | nil =>
    cases a' with
    | nil => simpa using h
    | cons x a' =>
      simp only [List.nil_append, List.cons_append, List.cons.injEq] at h
      exact absurd (h.2 ▸ by simp : (45 : UInt8) ∈ b) hb
  | cons x a ih =>
    cases a' with
    | nil =>
      simp only [List.nil_append, List.cons_append, List.cons.injEq] at h
      exact absurd (h.2 ▸ by simp : (45 : UInt8) ∈ b') hb'
    | cons y a' =>
      simp only [List.cons_append, List.cons.injEq] at h
      obtain ⟨h1, h2⟩ := ih h.2
      exact ⟨by rw [h.1, h1], h2⟩

/-- Two attachments in the same cache directory share an entry only if they are the same, provided container IDs and interface
names do not contain the separator `-`. (The full claim is refuted below.) -/
theorem c19_distinct (c c2 : CNIConfig) (name name2 : Bytes) (rt rt2 : RuntimeConf) (hd : cacheRoot c rt = cacheRoot c2 rt2)
    (h1 : 45 ∉ rt.containerID) (h2 : 45 ∉ rt.ifName) (h3 : 45 ∉ rt2.containerID) (h4 : 45 ∉ rt2.ifName)
    (h : entryPath c name rt = entryPath c2 name2 rt2) :
    name = name2 ∧ rt.containerID = rt2.containerID ∧ rt.ifName = rt2.ifName := by
  unfold entryPath at h
  rw [hd] at h
  have h := childPath_inj h
  simp only [List.append_assoc, List.cons_append, List.nil_append] at h
  have e1 : name ++ 45 :: (rt.containerID ++ 45 :: rt.ifName) = (name ++ 45 :: rt.containerID) ++ 45 :: rt.ifName := by simp
  have e2 : name2 ++ 45 :: (rt2.containerID ++ 45 :: rt2.ifName) = (name2 ++ 45 :: rt2.containerID) ++ 45 :: rt2.ifName := by simp
  rw [e1, e2] at h
  obtain ⟨ha, hb⟩ := split_last_dash h h2 h4
  obtain ⟨hc, hd⟩ := split_last_dash ha h1 h3
  exact ⟨hc, hd, hb⟩

/-- Names are allowed to contain the separator, and then different attachments can share an entry. -/
theorem c19_collision : ∃ (c : CNIConfig) (n n' : Bytes) (rt rt' : RuntimeConf),
    ValidName n ∧ ValidName rt.containerID ∧ ValidIfName rt.ifName ∧ ValidName n' ∧ ValidName rt'.containerID ∧ ValidIfName rt'.ifName ∧
      (n, rt.containerID) ≠ (n', rt'.containerID) ∧ entryPath c n rt = entryPath c n' rt' := by
  refine ⟨{}, b!"a", b!"a-b", { containerID := b!"b-c", ifName := b!"e" }, { containerID := b!"c", ifName := b!"e" },
    ?_, ?_, ?_, ?_, ?_, ?_, by decide, by decide +kernel⟩
  · exact (c43_network_name _).1.1 (by decide +kernel)
  · exact (c43_container_id _).1.1 (by decide +kernel)
  · exact (c43_interface_name _).1.1 (by decide +kernel)
  · exact (c43_network_name _).1.1 (by decide +kernel)
  · exact (c43_container_id _).1.1 (by decide +kernel)
  · exact (c43_interface_name _).1.1 (by decide +kernel)

/-- The effect of the collision: ADDs for two different containers, and the cached result of the first is that of the second. -/
theorem c19_collision_effect : ∃ (c : CNIConfig) (l l' : NetConfList) (rt rt' : RuntimeConf), rt.containerID ≠ rt'.containerID ∧
    ∃ tr fs' o, Runs false ((c.addNetworkList l rt).bind fun _ => (c.addNetworkList l' rt').bind fun _ =>
        c.getNetworkListCachedConfig l rt) (fun _ => none) tr fs' o ∧
      o.toOption.map (Option.map Prod.fst) = some (some l'.bytes) ∧ l.bytes ≠ l'.bytes := by
  refine ⟨Example.cfg, { Example.list with name := b!"a" }, { Example.list with name := b!"a-b", bytes := b!"[]" },
    { Example.rt with containerID := b!"b-c" }, { Example.rt with containerID := b!"c" }, by decide, ?_⟩
  obtain ⟨tr, fs', o, h1, h2⟩ := Prog.interp_exists (flt := false) (find := Example.find) (exec := Example.good) (fs := fun _ => none)
    (p := (Example.cfg.addNetworkList { Example.list with name := b!"a" } { Example.rt with containerID := b!"b-c" }).bind fun _ =>
      (Example.cfg.addNetworkList { Example.list with name := b!"a-b", bytes := b!"[]" } { Example.rt with containerID := b!"c" }).bind fun _ =>
        Example.cfg.getNetworkListCachedConfig { Example.list with name := b!"a" } { Example.rt with containerID := b!"b-c" })
    (fun _ _ o => o.toOption.map (Option.map Prod.fst)) (b := some (some b!"[]")) (by decide +kernel)
  exact ⟨tr, fs', o, h1, h2, by decide⟩

example : (45 : UInt8) ∉ Example.rt.containerID ∧ 45 ∉ Example.rt.ifName := by decide

/-! ### C18 -/

/-- The operation is one on an attachment with ordinary names, and its capability arguments are documents whose numbers fit in a double. -/
structure Spec.ApiOp.Proper (op : ApiOp) : Prop where
  names : PlainNames op.name op.rt
  caps : ∀ kv ∈ op.rt.capArgs, kv.2.NumsOK ∧ InRange kv.2
  sorted : GoMap.Sorted op.rt.capArgs

theorem Spec.ApiOp.Proper.ok {op : ApiOp} (h : op.Proper) : op.rt.OK := ⟨h.sorted, fun kv hkv => (h.caps kv hkv).1⟩

/-- The file at `q` holds the stored value `s`. -/
def Holds (q : Bytes) (fs : FS) : Option Stored → Prop
  | none => fs q = none
  | some st => ∃ info, cachedInfoOf st.result st.config st.name st.rt = some info ∧ fs q = some info.json.print ∧ st.rt.OK ∧
      (∀ kv ∈ st.rt.capArgs, InRange kv.2) ∧ ∀ r, st.result = some r → WellTyped r

theorem Holds.of_eq {q : Bytes} {fs fs' : FS} {s : Option Stored} (h : Holds q fs s) (he : fs' q = fs q) : Holds q fs' s := by
  cases s with
  | none => exact he.trans h
  | some st =>
    obtain ⟨info, h1, h2, h3⟩ := h
    exact ⟨info, h1, he.trans h2, h3⟩

theorem runs_reply {α : Type} {p : Prog α} {f : α → Reply} {fs fs' : FS} {tr : Trace} {o : Out Reply}
    (h : Runs false (p.bind fun r => .done (.ok (f r))) fs tr fs' o) :
    ∃ o', Runs false p fs tr fs' o' ∧ (∀ x, o' = .ok x → o = .ok (f x)) ∧ ((∀ x, o' ≠ .ok x) → ∀ x, o ≠ .ok x) := by
  obtain ⟨tr1, tr2, fs1, o1, rfl, h1, h2⟩ := runs_bind.1 h
  cases o1 with
  | ok a =>
    obtain ⟨rfl, rfl, rfl⟩ := runs_done.1 h2
    exact ⟨_, by simpa using h1, fun x hx => (by cases hx; rfl), fun hx => absurd rfl (hx _)⟩
  | err g =>
    obtain ⟨rfl, rfl, rfl⟩ := h2
    exact ⟨_, by simpa using h1, fun x hx => (by cases hx), fun _ x hx => (by cases hx)⟩
  | panic =>
    obtain ⟨rfl, rfl, rfl⟩ := h2
    exact ⟨_, by simpa using h1, fun x hx => (by cases hx), fun _ x hx => (by cases hx)⟩

theorem addNetworkList_plain {c : CNIConfig} {list : NetConfList} {rt : RuntimeConf} (hrt : rt.OK) (hpl : PlainNames list.name rt)
    {fs fs' : FS} {tr : Trace} {o : Out (Option Result)} (h : Runs false (c.addNetworkList list rt) fs tr fs' o) :
    (fs' = fs ∧ ∀ x, o ≠ .ok x) ∨ ∃ r info, o = .ok r ∧ cachedInfoOf r list.bytes list.name rt = some info ∧
      fs' = fs.set (entryPath c list.name rt) (some info.json.print) ∧ ∀ x, r = some x → WellTyped x := by
  obtain ⟨rs, hch, hok, -, hval, hc⟩ := addNetworkList_runs hrt h
  rcases hc with h | ⟨hl, info, p, hi, hp, ⟨rfl, rfl⟩ | ⟨hf, _⟩⟩
  · exact .inl h
  · rw [cachePath_eq hpl] at hp
    cases hp
    refine .inr ⟨_, info, rfl, hi, rfl, fun x hx => ?_⟩
    obtain ⟨i, hi⟩ := List.mem_iff_getElem?.1 (List.mem_of_getLast? hx)
    obtain ⟨e, he, out, -, hret⟩ := hch.results i x hi
    exact resultOfOutput_wellTyped hret
  · cases hf

theorem addNetwork_plain {c : CNIConfig} {net : PluginConfig} {rt : RuntimeConf} (hrt : rt.OK)
    {fs fs' : FS} {tr : Trace} {o : Out Result} (h : Runs false (c.addNetwork net rt) fs tr fs' o) :
    (fs' = fs ∧ ∀ x, o ≠ .ok x) ∨ ∃ r info, o = .ok r ∧ cachedInfoOf (some r) net.bytes net.network.name rt = some info ∧
      fs' = fs.set (entryPath c net.network.name rt) (some info.json.print) ∧ WellTyped r := by
  obtain ⟨rs, hch, hok, -, hval, hc⟩ := addNetwork_runs hrt h
  rcases hc with h' | ⟨r, hr, info, p, hi, hp, ⟨rfl, rfl⟩ | ⟨hf, _⟩⟩
  · exact .inl h'
  · obtain ⟨hw, hpl, _⟩ := addNetwork_stored hrt h
    rw [cachePath_eq hpl] at hp
    cases hp
    exact .inr ⟨_, info, rfl, hi, rfl, hw⟩
  · cases hf

/-- Writing an entry. -/
theorem effect_add {q conf : Bytes} {op : ApiOp} {o : Out Reply} {s : Option Stored} {fs fs' : FS} (hp : op.Proper)
    (ha : op.added = some conf) (hh : Holds q fs s)
    (h : (fs' = fs ∧ ∀ x, o ≠ .ok x) ∨ ∃ r info, o = .ok (.result r) ∧ cachedInfoOf r conf op.name op.rt = some info ∧
      fs' = fs.set op.key (some info.json.print) ∧ ∀ x, r = some x → WellTyped x) :
    ∃ s', Effect q op o s s' ∧ Holds q fs' s' := by
  rcases h with ⟨rfl, hno⟩ | ⟨r, info, rfl, hi, rfl, hw⟩
  · exact ⟨s, .kept (.inr (.inl hno)), hh⟩
  · by_cases hk : op.key = q
    · subst hk
      exact ⟨_, .stored rfl ha, info, hi, FS.set_same _ _ _, hp.ok, fun kv hkv => (hp.caps kv hkv).2, hw⟩
    · exact ⟨s, .kept (.inl hk), hh.of_eq (FS.set_other _ _ (Ne.symm hk))⟩

/-- Removing an entry. -/
theorem effect_del {q : Bytes} {op : ApiOp} {o : Out Reply} {s : Option Stored} {fs fs' : FS} (hd : op.isDel = true)
    (hh : Holds q fs s) (hfr : ∀ q, fs' q ≠ fs q → q = op.key ∧ (∃ x, o = .ok x)) (hok : ∀ x, o = .ok x → fs' op.key = none) :
    ∃ s', Effect q op o s s' ∧ Holds q fs' s' := by
  by_cases hk : op.key = q
  · by_cases hx : ∃ x, o = .ok x
    · obtain ⟨x, rfl⟩ := hx
      subst hk
      exact ⟨none, .removed rfl hd, hok x rfl⟩
    · refine ⟨s, .kept (.inr (.inl fun x hx' => hx ⟨x, hx'⟩)), hh.of_eq ?_⟩
      exact Classical.byContradiction fun hne => hx (hfr q hne).2
  · refine ⟨s, .kept (.inl hk), hh.of_eq ?_⟩
    exact Classical.byContradiction fun hne => hk (hfr q hne).1.symm

theorem Spec.ApiOp.step {q : Bytes} {op : ApiOp} {o : Out Reply} {s : Option Stored} {fs fs' : FS} {tr : Trace} (hp : op.Proper)
    (h : Runs false op.call fs tr fs' o) (hh : Holds q fs s) : ∃ s', Effect q op o s s' ∧ Holds q fs' s' := by
  cases op with
  | add c l rt =>
    obtain ⟨o', h, h1, h2⟩ := runs_reply h
    refine effect_add hp rfl hh ?_
    rcases addNetworkList_plain hp.ok hp.names h with ⟨rfl, hno⟩ | ⟨r, info, rfl, hi, rfl, hw⟩
    · exact .inl ⟨rfl, h2 hno⟩
    · exact .inr ⟨r, info, h1 _ rfl, hi, rfl, hw⟩
  | addNetwork c n rt =>
    obtain ⟨o', h, h1, h2⟩ := runs_reply h
    refine effect_add hp rfl hh ?_
    rcases addNetwork_plain hp.ok h with ⟨rfl, hno⟩ | ⟨r, info, rfl, hi, rfl, hw⟩
    · exact .inl ⟨rfl, h2 hno⟩
    · exact .inr ⟨some r, info, h1 _ rfl, hi, rfl, fun x hx => by cases hx; exact hw⟩
  | del c l rt =>
    obtain ⟨o', h, h1, h2⟩ := runs_reply h
    by_cases hx : ∃ x, o' = .ok x
    · obtain ⟨⟨⟩, rfl⟩ := hx
      refine effect_del rfl hh (fun q hq => ⟨(c14_del_files c l rt hp.ok hp.names fs fs' tr _ h q hq).1, _, h1 _ rfl⟩) fun _ _ => ?_
      exact c14_del_removes c l rt hp.ok hp.names fs fs' tr h
    · have hno : ∀ x, o ≠ .ok x := h2 fun x hx' => hx ⟨x, hx'⟩
      by_cases hq : fs' q = fs q
      · exact ⟨s, .kept (.inr (.inl hno)), hh.of_eq hq⟩
      · obtain ⟨hk, hn, ho⟩ := c14_del_files c l rt hp.ok hp.names fs fs' tr _ h q hq
        rcases ho with ho | ⟨-, tr1, g, hg⟩
        · exact absurd ⟨_, ho⟩ hx
        · cases s with
          | none => exact absurd (hn.trans hh.symm) hq
          | some st =>
            refine ⟨none, .dropped hk.symm hno ?_, hn⟩
            intro r hr hrep r' hr'
            obtain ⟨info, hi, hf, hrt, hcap, hw⟩ := hh
            rw [hr] at hi
            obtain ⟨-, -, h3, -⟩ := runs_getCachedResult hg
            have := h3 rfl _ (cachePath_eq hp.names)
            rw [show entryPath c l.name rt = q from hk.symm, hf, cachedResultOf_entry hrt (hw r hr) hrep hi hcap, hr'] at this
            cases this
  | delNetwork c n rt =>
    obtain ⟨o', h, h1, h2⟩ := runs_reply h
    obtain ⟨-, -, -, hfr, hrm⟩ := c14_del_network c n rt hp.ok hp.names fs fs' tr _ h
    refine effect_del rfl hh (fun q hq => ⟨(hfr q hq).1, _, h1 _ (hfr q hq).2.2⟩) fun x hx => ?_
    cases o' with
    | ok u => exact hrm rfl rfl
    | err g => exact absurd hx (h2 (by simp) x)
    | panic => exact absurd hx (h2 (by simp) x)
  | check c l rt =>
    obtain ⟨o', h, h1, h2⟩ := runs_reply h
    obtain ⟨rfl, -⟩ := c15_check_list c l rt hp.ok _ _ _ _ h
    exact ⟨s, .kept (.inr (.inr ⟨rfl, rfl⟩)), hh⟩
  | checkNetwork c n rt =>
    obtain ⟨o', h, h1, h2⟩ := runs_reply h
    obtain ⟨rfl, -⟩ := c15_check_network c n rt hp.ok _ _ _ _ h
    exact ⟨s, .kept (.inr (.inr ⟨rfl, rfl⟩)), hh⟩
  | cachedResult c l rt =>
    obtain ⟨o', h, h1, h2⟩ := runs_reply h
    obtain ⟨rfl, -⟩ := runs_getCachedResult h
    exact ⟨s, .kept (.inr (.inr ⟨rfl, rfl⟩)), hh⟩
  | cachedConfig c l rt =>
    obtain ⟨o', h, h1, h2⟩ := runs_reply h
    obtain ⟨rfl, -⟩ := runs_getCachedConfig h
    exact ⟨s, .kept (.inr (.inr ⟨rfl, rfl⟩)), hh⟩

theorem Spec.History.effects {q : Bytes} {h : List (ApiOp × Out Reply)} {fs fs' : FS} (hh : History h fs fs') :
    ∀ {s : Option Stored}, (∀ x ∈ h, x.1.Proper) → Holds q fs s → ∃ s', Effects q h s s' ∧ Holds q fs' s' := by
  induction hh with
  | nil fs => exact fun _ hs => ⟨_, .nil _, hs⟩
  | cons h1 h2 ih =>
    intro s hp hs
    obtain ⟨s1, he, hs1⟩ := ApiOp.step (hp _ (List.mem_cons_self ..)) h1 hs
    obtain ⟨s2, he2, hs2⟩ := ih (fun x hx => hp x (by simp [hx])) hs1
    exact ⟨s2, .cons he he2, hs2⟩

/-- For any history that starts with no entry under a key, what is stored under the key is what the successful ADDs and DELs of
that key leave there — the last ADD's result and configuration, nothing if a DEL succeeded since —, and that is what reading the
cache returns: the result converted to the reader's version, and the configuration. -/
theorem c18_history (q : Bytes) (h : List (ApiOp × Out Reply)) (fs fs' : FS) (hh : History h fs fs') (hp : ∀ x ∈ h, x.1.Proper)
    (h0 : fs q = none) :
    ∃ s, Effects q h none s ∧
      ∀ (c : CNIConfig) (list : NetConfList) (rt : RuntimeConf), PlainNames list.name rt → entryPath c list.name rt = q →
        (∀ tr fs2 o, Runs false (c.getNetworkListCachedResult list rt) fs' tr fs2 o →
          (s = none → o = .ok none) ∧
          (∀ st r r', s = some st → st.result = some r → Representable true r → r.getAsVersion list.cniVersion = .ok r' →
            o = .ok (some r'))) ∧
        (∀ tr fs2 o, Runs false (c.getNetworkListCachedConfig list rt) fs' tr fs2 o →
          (s = none → o = .ok none) ∧
          (∀ st, s = some st → ∃ rt', o = .ok (some (st.config, rt')))) := by
  obtain ⟨s, he, hs⟩ := hh.effects (s := none) hp h0
  refine ⟨s, he, fun c list rt hpl hk => ⟨fun tr fs2 o hr => ?_, fun tr fs2 o hr => ?_⟩⟩
  · obtain ⟨-, -, h3, -⟩ := runs_getCachedResult hr
    have hr := h3 rfl _ (cachePath_eq hpl)
    rw [hk] at hr
    refine ⟨?_, ?_⟩
    · rintro rfl
      rw [hr, show fs' q = none from hs]; rfl
    · rintro st r r' rfl hres hrep hr'
      obtain ⟨info, hi, hf, hrt, hcap, hw⟩ := hs
      rw [hres] at hi
      rw [hr, hf, cachedResultOf_entry hrt (hw r hres) hrep hi hcap, hr']
      rfl
  · obtain ⟨-, -, h3, -⟩ := runs_getCachedConfig hr
    have hr := h3 rfl _ (cachePath_eq hpl)
    rw [hk] at hr
    refine ⟨?_, ?_⟩
    · rintro rfl
      rw [hr, show fs' q = none from hs]; rfl
    · rintro st rfl
      obtain ⟨info, hi, hf, hrt, hcap, hw⟩ := hs
      obtain ⟨caps, -, hread⟩ := readCachedInfo_entry hrt hi hcap
      rw [hr, hf]
      unfold cachedConfigOf
      simp only [hread]
      rw [if_neg (by simp)]
      exact ⟨_, rfl⟩

/-- Operations that leave the entry `q` alone whatever they find there: those on other entries, those that neither add nor delete,
and those that failed, except a failed DEL of a list. -/
def Leaves (q : Bytes) (x : ApiOp × Out Reply) : Prop :=
  x.1.key ≠ q ∨ (x.1.added = none ∧ x.1.isDel = false) ∨ ((∀ y, x.2 ≠ .ok y) ∧ ∀ c l rt, x.1 ≠ .del c l rt)

theorem Spec.Effects.leaves {q : Bytes} {h : List (ApiOp × Out Reply)} {s s' : Option Stored} (he : Effects q h s s')
    (hl : ∀ x ∈ h, Leaves q x) : s' = s := by
  induction he with
  | nil => rfl
  | cons h1 h2 ih =>
    rw [ih fun x hx => hl x (by simp [hx])]
    have := hl _ (List.mem_cons_self ..)
    cases h1 with
    | kept => rfl
    | stored hk ha =>
      rcases this with h | ⟨h, _⟩ | ⟨h, _⟩
      · exact absurd hk h
      · rw [ha] at h; cases h
      · exact absurd rfl (h _)
    | removed hk ha =>
      rcases this with h | ⟨_, h⟩ | ⟨h, _⟩
      · exact absurd hk h
      · rw [ha] at h; cases h
      · exact absurd rfl (h _)
    | dropped hk hf hu =>
      rcases this with h | ⟨_, h⟩ | ⟨_, h⟩
      · exact absurd hk h
      · cases h
      · exact absurd rfl (h _ _ _)

theorem Spec.Effects.append {q : Bytes} {h1 h2 : List (ApiOp × Out Reply)} {s s' : Option Stored} (he : Effects q (h1 ++ h2) s s') :
    ∃ s1, Effects q h1 s s1 ∧ Effects q h2 s1 s' := by
  induction h1 generalizing s with
  | nil => exact ⟨s, .nil s, he⟩
  | cons x h1 ih =>
    cases he with
    | cons e1 e2 =>
      obtain ⟨s1, h3, h4⟩ := ih e2
      exact ⟨s1, .cons e1 h3, h4⟩

theorem Spec.Effect.ok_add {q conf : Bytes} {op : ApiOp} {y : Reply} {s s' : Option Stored} (he : Effect q op (.ok y) s s')
    (hk : op.key = q) (ha : op.added = some conf) : ∃ r, y = .result r ∧ s' = some ⟨r, conf, op.name, op.rt⟩ := by
  cases he with
  | stored _ ha' => rw [ha] at ha'; cases ha'; exact ⟨_, rfl, rfl⟩
  | removed _ hd => cases op <;> simp_all [ApiOp.added, ApiOp.isDel]
  | dropped _ hf => exact absurd rfl (hf _)
  | kept h =>
    rcases h with h | h | ⟨h, _⟩
    · exact absurd hk h
    · exact absurd rfl (h _)
    · rw [ha] at h; cases h

theorem Spec.Effect.ok_del {q : Bytes} {op : ApiOp} {y : Reply} {s s' : Option Stored} (he : Effect q op (.ok y) s s')
    (hk : op.key = q) (hd : op.isDel = true) : s' = none := by
  cases he with
  | stored _ ha' => cases op <;> simp_all [ApiOp.added, ApiOp.isDel]
  | removed _ _ => rfl
  | dropped _ hf => exact absurd rfl (hf _)
  | kept h =>
    rcases h with h | h | ⟨_, h⟩
    · exact absurd hk h
    · exact absurd rfl (h _)
    · rw [hd] at h; cases h

/-- After a successful ADD of the entry and operations that leave the entry alone, reading the cached configuration gives the
configuration of that ADD, and reading the cached result gives its result. -/
theorem c18_after_add (op : ApiOp) (y : Reply) (conf : Bytes) (ha : op.added = some conf) (h1 h2 : List (ApiOp × Out Reply)) (fs fs' : FS)
    (hh : History (h1 ++ (op, .ok y) :: h2) fs fs') (hp : ∀ x ∈ h1 ++ (op, .ok y) :: h2, x.1.Proper) (h0 : fs op.key = none)
    (hl : ∀ x ∈ h2, Leaves op.key x) (c : CNIConfig) (list : NetConfList) (rt : RuntimeConf) (hn : PlainNames list.name rt)
    (hk : entryPath c list.name rt = op.key) :
    (∀ tr fs2 o, Runs false (c.getNetworkListCachedConfig list rt) fs' tr fs2 o → ∃ rt', o = .ok (some (conf, rt'))) ∧
    (∀ tr fs2 o r r', Runs false (c.getNetworkListCachedResult list rt) fs' tr fs2 o → y = .result (some r) → Representable true r →
      r.getAsVersion list.cniVersion = .ok r' → o = .ok (some r')) := by
  obtain ⟨s, he, hs⟩ := c18_history _ _ _ _ hh hp h0
  obtain ⟨s1, -, e2⟩ := he.append
  cases e2 with
  | cons e2 e3 =>
    obtain ⟨r, rfl, rfl⟩ := e2.ok_add rfl ha
    have := e3.leaves hl
    subst this
    obtain ⟨ha, hb⟩ := hs c list rt hn hk
    refine ⟨fun tr fs2 o hr => (hb tr fs2 o hr).2 _ rfl, fun tr fs2 o r0 r' hr hy hrep hr' => ?_⟩
    cases hy
    exact (ha tr fs2 o hr).2 _ _ _ rfl rfl hrep hr'

/-- After a successful DEL of the entry and operations that leave the entry alone, nothing is read. -/
theorem c18_after_del (op : ApiOp) (y : Reply) (hd : op.isDel = true) (h1 h2 : List (ApiOp × Out Reply)) (fs fs' : FS)
    (hh : History (h1 ++ (op, .ok y) :: h2) fs fs') (hp : ∀ x ∈ h1 ++ (op, .ok y) :: h2, x.1.Proper) (h0 : fs op.key = none)
    (hl : ∀ x ∈ h2, Leaves op.key x) (c : CNIConfig) (list : NetConfList) (rt : RuntimeConf) (hn : PlainNames list.name rt)
    (hk : entryPath c list.name rt = op.key) :
    (∀ tr fs2 o, Runs false (c.getNetworkListCachedConfig list rt) fs' tr fs2 o → o = .ok none) ∧
    (∀ tr fs2 o, Runs false (c.getNetworkListCachedResult list rt) fs' tr fs2 o → o = .ok none) := by
  obtain ⟨s, he, hs⟩ := c18_history _ _ _ _ hh hp h0
  obtain ⟨s1, -, e2⟩ := he.append
  cases e2 with
  | cons e2 e3 =>
    have := e2.ok_del rfl hd
    subst this
    have := e3.leaves hl
    subst this
    obtain ⟨ha, hb⟩ := hs c list rt hn hk
    exact ⟨fun tr fs2 o hr => (hb tr fs2 o hr).1 rfl, fun tr fs2 o hr => (ha tr fs2 o hr).1 rfl⟩

/-- Run operations one after the other with the given plugins. Used in examples only. -/
def runHistory (find : Bytes → Except GoErr Bytes) (exec : Bytes → Bytes → PArgs → Except GoErr Bytes) :
    List ApiOp → FS → Option (List (ApiOp × Out Reply) × FS)
  | [], fs => some ([], fs)
  | op :: ops, fs => (op.call.interp find exec fs).bind fun x => (runHistory find exec ops x.2.1).map fun y => ((op, x.2.2) :: y.1, y.2)

theorem runHistory_history {find : Bytes → Except GoErr Bytes} {exec : Bytes → Bytes → PArgs → Except GoErr Bytes} {ops : List ApiOp} :
    ∀ {fs : FS} {x : List (ApiOp × Out Reply) × FS}, runHistory find exec ops fs = some x → History x.1 fs x.2 ∧ x.1.map Prod.fst = ops := by
  induction ops with
  | nil => intro fs x h; cases h; exact ⟨.nil _, rfl⟩
  | cons op ops ih =>
    intro fs x h
    simp only [runHistory, Option.bind_eq_some_iff, Option.map_eq_some_iff] at h
    obtain ⟨a, ha, y, hy, rfl⟩ := h
    obtain ⟨h1, h2⟩ := ih hy
    exact ⟨.cons (Prog.interp_runs _ ha) h1, by simp [h2]⟩

def Example.rt2 : RuntimeConf := { Example.rt with containerID := b!"other" }

/-- The operations of the example: an ADD, one of another attachment, a CHECK and a DEL of the first. -/
def Example.ops : List ApiOp :=
  [.add Example.cfg Example.list Example.rt, .add Example.cfg Example.list Example.rt2, .check Example.cfg Example.list Example.rt,
   .del Example.cfg Example.list Example.rt]

theorem Example.ops_proper : ∀ op ∈ Example.ops, op.Proper := by
  simp only [Example.ops, List.mem_cons, List.not_mem_nil, or_false]
  rintro op (rfl | rfl | rfl | rfl) <;>
    exact ⟨⟨by decide +kernel, by decide +kernel, by decide +kernel⟩, by simp [ApiOp.rt, Example.rt, Example.rt2], by trivial⟩

/-- All succeed; afterwards there is an entry for the second attachment only. -/
example : ∃ h fs', History h (fun _ => none) fs' ∧ h.map Prod.fst = Example.ops ∧ (∀ x ∈ h, x.1.Proper) ∧
    (h.map fun x => x.2.toOption.isSome) = [true, true, true, true] ∧ fs' b!"/cache/results/net-c1-eth0" = none ∧
    (fs' b!"/cache/results/net-other-eth0").isSome = true := by
  have h : ((runHistory Example.find Example.good Example.ops (fun _ => none)).map fun x =>
      ((x.1.map fun x => x.2.toOption.isSome), x.2 b!"/cache/results/net-c1-eth0", (x.2 b!"/cache/results/net-other-eth0").isSome)) =
      some ([true, true, true, true], none, true) := by decide +kernel
  obtain ⟨x, hx, hy⟩ := Option.map_eq_some_iff.1 h
  simp only [Prod.mk.injEq] at hy
  obtain ⟨h1, h2⟩ := runHistory_history hx
  exact ⟨x.1, x.2, h1, h2, fun y hy => Example.ops_proper _ (h2 ▸ List.mem_map_of_mem hy), hy.1, hy.2.1, hy.2.2⟩

end Verif
