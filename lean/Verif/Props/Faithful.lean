/-
What a plugin returned, or anything else read from a document, can be written and read again as long as its networks are given and its
integers are below 2^53 (C16, C32).
-/
import Verif.Props.Progress
import Verif.Props.CacheUse
import Verif.Props.ResultJson
import Verif.Spec.Faithful

namespace Verif
open Verif.Spec

variable {flt : Bool}

theorem to4_isSome_take {ip : IP} (h : ip.length = 16) :
    (IP.to4 ip).isSome = true ↔ ip.take 12 = [0, 0, 0, 0, 0, 0, 0, 0, 0, 0, 0xff, 0xff] := by
  unfold IP.to4
  rw [if_neg (by omega)]
  have : v4InV6Prefix = [0, 0, 0, 0, 0, 0, 0, 0, 0, 0, 0xff, 0xff] := by decide
  rw [this]
  split <;> simp_all

/-- A network that was read is in canonical form exactly if it can be written back. -/
theorem netRead_canon {n : IPNet} (h : NetRead n) : n.Canon ↔ NetFaithful n := by
  rcases h with rfl | ⟨hl, h⟩
  · constructor
    · rintro ⟨h, -⟩; cases h
    · rintro ⟨h, -⟩; exact absurd rfl h
  · have hne : n.ip ≠ [] := by rintro h; rw [h] at hl; cases hl
    unfold NetFaithful IPNet.Canon
    rw [← to4_isSome_take hl]
    by_cases h4 : (IP.to4 n.ip).isSome = true
    · simp only [h4, if_true, hl, true_and, ne_eq, hne, not_false_eq_true]
      constructor
      · rintro ⟨p, -, hm⟩ h; rw [hm, cidrMask_length] at h; cases h
      · intro hm
        rcases h with ⟨-, h⟩ | ⟨p, -, hp⟩
        · exact h
        · exact absurd (by rw [hp, cidrMask_length]) hm
    · simp only [h4, hl, true_and, ne_eq, hne, not_false_eq_true]
      rcases h with ⟨h, -⟩ | h
      · exact absurd h h4
      · simpa using h

theorem routeWith_faithful {t : Route} (h : RouteWith NetRead false t) :
    RouteWith IPNet.Canon true t ↔ NetFaithful t.dst ∧ ∀ i ∈ routeIntegers t, i.natAbs < 2 ^ 53 := by
  obtain ⟨h1, h2, -⟩ := h
  unfold RouteWith routeIntegers OptFits Fits
  rw [netRead_canon h1]
  cases t.table <;> cases t.scope <;> simp [h2]

theorem eachOk_filter {α : Type} {P : α → Prop} {l : List (Option α)} : EachOk P l ↔ ∀ a ∈ l.filterMap id, P a := by
  unfold EachOk
  constructor
  · intro h a ha
    obtain ⟨x, hx, rfl⟩ := List.mem_filterMap.1 ha
    exact h _ hx a rfl
  · intro h x hx a ha
    exact h a (List.mem_filterMap.2 ⟨x, hx, ha⟩)

/-- If each element's claim splits into one about its networks and one about its integers, so does that about all of them. -/
theorem forall_split {α : Type} {P : α → Prop} {Q : IPNet → Prop} {R : Int → Prop} {l : List α} {f : α → List IPNet} {g : α → List Int}
    (h : ∀ a ∈ l, (P a ↔ (∀ n ∈ f a, Q n) ∧ ∀ i ∈ g a, R i)) :
    (∀ a ∈ l, P a) ↔ (∀ n ∈ l.flatMap f, Q n) ∧ ∀ i ∈ l.flatMap g, R i := by
  constructor
  · intro hp
    constructor
    · intro n hn
      obtain ⟨a, ha, hn⟩ := List.mem_flatMap.1 hn
      exact ((h a ha).1 (hp a ha)).1 n hn
    · intro n hn
      obtain ⟨a, ha, hn⟩ := List.mem_flatMap.1 hn
      exact ((h a ha).1 (hp a ha)).2 n hn
  · rintro ⟨h1, h2⟩ a ha
    exact (h a ha).2 ⟨fun n hn => h1 n (List.mem_flatMap.2 ⟨a, ha, hn⟩), fun n hn => h2 n (List.mem_flatMap.2 ⟨a, ha, hn⟩)⟩

theorem routes_faithful {l : List Route} (h : ∀ t ∈ l, RouteWith NetRead false t) : (∀ t ∈ l, RouteWith IPNet.Canon true t) ↔
    (∀ n ∈ l.map (fun t => t.dst), NetFaithful n) ∧ ∀ i ∈ l.flatMap routeIntegers, i.natAbs < 2 ^ 53 := by
  have := forall_split (l := l) (P := RouteWith IPNet.Canon true) (Q := NetFaithful) (R := fun i => i.natAbs < 2 ^ 53) (f := fun t => [t.dst])
    (g := routeIntegers) fun t ht => by simpa using routeWith_faithful (h t ht)
  rw [this, ← List.map_eq_flatMap (f := fun t : Route => t.dst)]

theorem optFits_exact {o : Option Int} : OptFits true o ↔ ∀ i ∈ o.toList, i.natAbs < 2 ^ 53 := by
  cases o <;> simp [OptFits, Fits]

theorem ip020_faithful {i : Ip020} (h : Ip020With NetRead false i) : Ip020With IPNet.Canon true i ↔
    (∀ n ∈ i.ip :: i.routes.map (fun t => t.dst), NetFaithful n) ∧ ∀ x ∈ i.routes.flatMap routeIntegers, x.natAbs < 2 ^ 53 := by
  obtain ⟨h1, h2, h3⟩ := h
  unfold Ip020With
  rw [netRead_canon h1, routes_faithful h3, List.forall_mem_cons]
  simp [h2, and_assoc]

theorem representable_faithful {r : Result} (h : ResultWith NetRead false r) : Representable true r ↔ Faithful r := by
  rw [representable_iff]
  unfold Faithful
  cases r with
  | v020 r =>
    obtain ⟨h4, h6, hd⟩ := h
    have := forall_split (l := r.ip4.toList ++ r.ip6.toList) (P := Ip020With IPNet.Canon true) (Q := NetFaithful)
      (R := fun i => i.natAbs < 2 ^ 53) (f := fun i => i.ip :: i.routes.map fun t => t.dst) (g := fun i => i.routes.flatMap routeIntegers)
      fun i hi => ip020_faithful (by
        rcases List.mem_append.1 hi with hi | hi
        · exact h4 i (Option.mem_toList.1 hi)
        · exact h6 i (Option.mem_toList.1 hi))
    unfold networksIn integersIn
    rw [← this]
    unfold ResultWith
    simp only [List.mem_append, Option.mem_toList]
    exact ⟨fun ⟨a, b, _⟩ i hi => hi.elim (a i) (b i), fun h => ⟨fun i hi => h i (.inl hi), fun i hi => h i (.inr hi), hd⟩⟩
  | v040 r =>
    obtain ⟨hi, hp, hr, hd⟩ := h
    rw [eachOk_filter] at hp hr
    have h2 := routes_faithful hr
    have h1 := forall_split (l := r.ips.filterMap id) (P := Ip040With IPNet.Canon true) (Q := NetFaithful)
      (R := fun i => i.natAbs < 2 ^ 53) (f := fun i => [i.address]) (g := fun i => i.interface.toList)
      fun i hi => by
        obtain ⟨a, b, c, d⟩ := hp i hi
        unfold Ip040With
        rw [netRead_canon c, optFits_exact]
        simp [a, d, and_comm]
    rw [← List.map_eq_flatMap (f := fun i : Ip040 => i.address)] at h1
    unfold networksIn integersIn ResultWith
    simp only
    rw [eachOk_filter (P := Ip040With _ _), eachOk_filter (P := RouteWith _ _), h1, h2, List.forall_mem_append, List.forall_mem_append]
    exact ⟨fun ⟨_, ⟨a, b⟩, ⟨c, d⟩, _⟩ => ⟨⟨a, c⟩, b, d⟩, fun ⟨⟨a, c⟩, b, d⟩ => ⟨hi, ⟨a, b⟩, ⟨c, d⟩, hd⟩⟩
  | v100 r =>
    obtain ⟨hi, hp, hr, hd⟩ := h
    rw [eachOk_filter] at hi hp hr
    have h2 := routes_faithful hr
    have h1 := forall_split (l := r.ips.filterMap id) (P := Ip100With IPNet.Canon true) (Q := NetFaithful)
      (R := fun i => i.natAbs < 2 ^ 53) (f := fun i => [i.address]) (g := fun i => i.interface.toList)
      fun i hi => by
        obtain ⟨b, c, d⟩ := hp i hi
        unfold Ip100With
        rw [netRead_canon c, optFits_exact]
        simp [d, and_comm]
    have h0 := forall_split (l := r.interfaces.filterMap id) (P := Intf100Ok true) (Q := NetFaithful)
      (R := fun i => i.natAbs < 2 ^ 53) (f := fun _ => []) (g := fun i => [i.mtu])
      fun i h => by
        obtain ⟨a, b, c, d, e, f⟩ := hi i h
        unfold Intf100Ok Fits
        simp [a, b, d, e, f]
    rw [← List.map_eq_flatMap (f := fun i : Ip100 => i.address)] at h1
    rw [← List.map_eq_flatMap (f := fun i : Intf100 => i.mtu)] at h0
    unfold networksIn integersIn ResultWith
    simp only
    rw [eachOk_filter (P := Ip100With _ _), eachOk_filter (P := RouteWith _ _), eachOk_filter (P := Intf100Ok _), h0, h1, h2,
      List.forall_mem_append, List.forall_mem_append, List.forall_mem_append]
    exact ⟨fun ⟨⟨_, x⟩, ⟨a, b⟩, ⟨c, d⟩, _⟩ => ⟨⟨a, c⟩, ⟨x, b⟩, d⟩, fun ⟨⟨a, c⟩, ⟨x, b⟩, d⟩ => ⟨⟨by simp, x⟩, ⟨a, b⟩, ⟨c, d⟩, hd⟩⟩

/-! ### C32 and C16 with this condition -/

/-- C32: a result read from a document, whose networks are given and whose integers are below 2^53, is written as JSON that reads back as the
same result; also through the cache. -/
theorem c32_created (v b : Bytes) (r : Result) (h : create v b = .ok r) (hf : Faithful r) :
    (∃ j, r.json = some j ∧ create r.version j.print = .ok r ∧ createFromBytes j.print = .ok r) ∧
      ∃ j j', r.json = some j ∧ Json.toAny j = some j' ∧ create r.version j'.print = .ok r := by
  have hr := (representable_faithful (create_read h)).2 hf
  have hw := (create_wellTyped h).1
  obtain ⟨j, h1, h2⟩ := c32_roundtrip true r hw hr (fun _ _ => rfl)
  obtain ⟨j', h1', h2'⟩ := c32_roundtrip_detect true r hw hr (fun _ _ => rfl)
  rw [h1] at h1'
  cases h1'
  exact ⟨⟨j, h1, h2, h2'⟩, c32_roundtrip_any r hw hr⟩

/-- C16: the condition on results in the theorems of C16, for the result of an ADD, in terms of what the result holds. -/
theorem c16_faithful (c : CNIConfig) (list : NetConfList) (rt : RuntimeConf) (hrt : rt.OK) (fs fs' : FS) (tr : Trace) (r : Result)
    (h : Runs flt (c.addNetworkList list rt) fs tr fs' (.ok (some r))) : Representable true r ↔ Faithful r := by
  obtain ⟨rs, hch, hok, -⟩ := addNetworkList_runs hrt h
  have hmem : r ∈ rs := List.mem_of_getLast? (hok _ rfl).2.symm
  obtain ⟨i, hi⟩ := List.mem_iff_getElem?.1 hmem
  obtain ⟨e, he, hret⟩ := hch.results i r hi
  exact representable_faithful (returned_read hret)

theorem c16_faithful_network (c : CNIConfig) (net : PluginConfig) (rt : RuntimeConf) (hrt : rt.OK) (fs fs' : FS) (tr : Trace) (r : Result)
    (h : Runs flt (c.addNetwork net rt) fs tr fs' (.ok r)) : Representable true r ↔ Faithful r := by
  obtain ⟨rs, hch, hok, -⟩ := addNetwork_runs hrt h
  obtain ⟨e, he, hret⟩ := hch.results 0 r (by rw [hok r rfl]; rfl)
  exact representable_faithful (returned_read hret)

/-! ### C64: the life of an attachment -/

theorem getAsVersion_total {r : Result} (ht : WellTyped r) (hn : NoNull r) {w : Bytes} (hw : w ∈ specVersions) (ho : w ∉ old020) :
    ∃ r', r.getAsVersion w = .ok r' := by
  rw [c27_getAsVersion, if_pos]
  · rcases c27_every_pair r ht hn hw with h | ⟨h, -⟩
    · exact h
    · exact absurd h ho
  · intro h
    cases r with
    | v020 x =>
      have ht : x.cniVersion ∈ old020 := ht
      rw [show x.cniVersion = [] from h] at ht; revert ht; decide
    | v040 x =>
      have ht : x.cniVersion ∈ mid040 := ht
      rw [show x.cniVersion = [] from h] at ht; revert ht; decide
    | v100 x =>
      have ht : x.cniVersion ∈ new100 := ht
      rw [show x.cniVersion = [] from h] at ht; revert ht; decide

/-- C64. A list is loaded from its text and is of a version with CHECK. In an ADD of it with valid names every plugin is found and returns a
result, the last one a result without null entries whose networks are given and whose integers are below 2^53. Then ADD succeeds with that
result. As long as its cache entry is left alone, CHECK and DEL of the same attachment hand that result, converted to the version of the list,
to every plugin, and succeed exactly if every plugin is executed and succeeds. A DEL that succeeds leaves no cache entry. -/
theorem c64_life (sort : List Bytes → List Bytes) (hsort : VersionSorter sort) (b : Bytes) (L : NetConfList)
    (hL : networkConfFromBytesWith sort b = .ok L) (hp : L.plugins ≠ []) (hver : L.cniVersion ∈ [b!"0.4.0", b!"1.0.0", b!"1.1.0"])
    (c : CNIConfig) (rt : RuntimeConf) (hrt : rt.OK) (hcap : ∀ kv ∈ rt.capArgs, InRange kv.2)
    (hnames : ValidName rt.containerID ∧ ValidName L.name ∧ ValidIfName rt.ifName)
    (fs0 fs1 : FS) (tr0 : Trace) (o0 : Out (Option Result)) (hadd : Runs false (c.addNetworkList L rt) fs0 tr0 fs1 o0)
    (hfound : AllFound tr0) (hret : AllReturned tr0)
    (hlast : ∀ e r, tr0.execs.getLast? = some e → Returned e r → NoNull r ∧ Faithful r) :
    ∃ e r r', tr0.execs.getLast? = some e ∧ Returned e r ∧ o0 = .ok (some r) ∧ r.getAsVersion L.cniVersion = .ok r' ∧
      (∀ c2 L2 rt2 fs2 tr fs3 o, SameAttachment c L.name rt c2 L2.name rt2 → rt2.OK → L2.cniVersion = L.cniVersion →
        fs2 (entryPath c L.name rt) = fs1 (entryPath c L.name rt) →
        (Runs false (c2.checkNetworkList L2 rt2) fs2 tr fs3 o → L2.disableCheck = false →
          Sweep c2 b!"CHECK" L2.name L2.cniVersion rt2 L2.plugins (some r') tr ∧ fs3 = fs2 ∧ (o = .ok () ↔ AllSucceeded L2.plugins tr)) ∧
        (Runs false (c2.delNetworkList L2 rt2) fs2 tr fs3 o →
          Sweep c2 b!"DEL" L2.name L2.cniVersion rt2 L2.plugins.reverse (some r') tr ∧ (o = .ok () ↔ AllSucceeded L2.plugins tr) ∧
          (o = .ok () → fs3 (entryPath c L.name rt) = none))) := by
  have hs := c24_loaded_sound sort hsort b L hL
  obtain ⟨x, rfl⟩ := (c63_add_list c L rt hrt hs hp _ _ _ _ hadd).2 ⟨hnames, hfound, hret⟩
  obtain ⟨rs, hch, hok, -⟩ := c12_add_list c L rt hrt _ _ _ _ hadd
  obtain ⟨hl, he, hx⟩ := hok _ rfl
  have hrs : rs ≠ [] := by rintro rfl; exact hp (List.length_eq_zero_iff.1 hl.symm)
  obtain ⟨r, hr⟩ : ∃ r, rs.getLast? = some r := by
    cases h : rs.getLast? with
    | none => exact absurd (List.getLast?_eq_none_iff.1 h) hrs
    | some r => exact ⟨r, rfl⟩
  rw [hr] at hx
  subst hx
  rw [List.getLast?_eq_getElem?] at hr
  obtain ⟨e, hel, her⟩ := hch.results _ r hr
  have hel : tr0.execs.getLast? = some e := by rw [List.getLast?_eq_getElem?, he, ← hl]; exact hel
  obtain ⟨hn, hf⟩ := hlast e r hel her
  obtain ⟨hw, hpl, info, hi, hfs1⟩ := addNetworkList_stored hrt hadd
  have hrep := (c16_faithful c L rt hrt _ _ _ r hadd).2 hf
  have hat : AtLeast L.cniVersion (0, 4, 0) := by
    simp only [List.mem_cons, List.not_mem_nil, or_false] at hver
    rcases hver with h | h | h <;> rw [h]
    · exact ⟨(0, 4, 0), (parseVersion_iff _ _).1 (by decide), by unfold LexLe LexLt; decide⟩
    · exact ⟨(1, 0, 0), (parseVersion_iff _ _).1 (by decide), by unfold LexLe LexLt; decide⟩
    · exact ⟨(1, 1, 0), (parseVersion_iff _ _).1 (by decide), by unfold LexLe LexLt; decide⟩
  obtain ⟨r', hr'⟩ : ∃ r', r.getAsVersion L.cniVersion = .ok r' := by
    apply getAsVersion_total hw hn
    · simp only [List.mem_cons, List.not_mem_nil, or_false] at hver
      rcases hver with h | h | h <;> rw [h] <;> decide
    · simp only [List.mem_cons, List.not_mem_nil, or_false] at hver
      rcases hver with h | h | h <;> rw [h] <;> decide
  refine ⟨e, r, r', hel, her, rfl, hr', ?_⟩
  intro c2 L2 rt2 fs2 tr fs3 o hsame hrt2 hv2 hkeep
  rw [← hv2] at hr' hat
  constructor
  · intro h hd
    obtain ⟨h1, h2⟩ := c16_check c c2 L L2 rt rt2 r hrt hadd hrep hcap hsame hkeep hrt2 o h hat hd r' hr'
    exact ⟨h1, (c15_check_list c2 L2 rt2 hrt2 _ _ _ _ h).1, h2⟩
  · intro h
    obtain ⟨h1, h2⟩ := c16_del c c2 L L2 rt rt2 r hrt hadd hrep hcap hsame hkeep hrt2 o h hat r' hr'
    refine ⟨h1, h2, ?_⟩
    rintro rfl
    have hpl2 : PlainNames L2.name rt2 := ⟨by rw [hsame.name]; exact hpl.name, by rw [hsame.cid]; exact hpl.cid, by rw [hsame.ifn]; exact hpl.ifn⟩
    have := c14_del_removes c2 L2 rt2 hrt2 hpl2 _ _ _ h
    unfold entryPath at this ⊢
    rw [hsame.name, hsame.cid, hsame.ifn, hsame.dir] at this
    exact this

/-- C64 for a single network. -/
theorem c64_life_network (c : CNIConfig) (net : PluginConfig) (hs : Sound net)
    (hver : net.network.cniVersion ∈ [b!"0.4.0", b!"1.0.0", b!"1.1.0"])
    (rt : RuntimeConf) (hrt : rt.OK) (hcap : ∀ kv ∈ rt.capArgs, InRange kv.2)
    (hnames : ValidName rt.containerID ∧ ValidName net.network.name ∧ ValidIfName rt.ifName)
    (fs0 fs1 : FS) (tr0 : Trace) (o0 : Out Result) (hadd : Runs false (c.addNetwork net rt) fs0 tr0 fs1 o0)
    (hfound : AllFound tr0) (hret : AllReturned tr0) (hlast : ∀ e r, tr0.execs = [e] → Returned e r → NoNull r ∧ Faithful r) :
    ∃ e r r', tr0.execs = [e] ∧ Returned e r ∧ o0 = .ok r ∧ r.getAsVersion net.network.cniVersion = .ok r' ∧
      (∀ c2 net2 rt2 fs2 tr fs3 o, SameAttachment c net.network.name rt c2 net2.network.name rt2 → rt2.OK →
        net2.network.cniVersion = net.network.cniVersion →
        fs2 (entryPath c net.network.name rt) = fs1 (entryPath c net.network.name rt) →
        (Runs false (c2.checkNetwork net2 rt2) fs2 tr fs3 o →
          Sweep c2 b!"CHECK" net2.network.name net2.network.cniVersion rt2 [net2] (some r') tr ∧ fs3 = fs2 ∧ (o = .ok () ↔ AllSucceeded [net2] tr)) ∧
        (Runs false (c2.delNetwork net2 rt2) fs2 tr fs3 o →
          Sweep c2 b!"DEL" net2.network.name net2.network.cniVersion rt2 [net2] (some r') tr ∧ (o = .ok () ↔ AllSucceeded [net2] tr) ∧
          (o = .ok () → fs3 (entryPath c net.network.name rt) = none))) := by
  obtain ⟨r, rfl⟩ := (c63_add_network c net rt hrt hs _ _ _ _ hadd).2 ⟨hnames, hfound, hret⟩
  obtain ⟨rs, hch, hok, -⟩ := c12_add_network c net rt hrt _ _ _ _ hadd
  have hrs := hok r rfl
  obtain ⟨e, he, her⟩ := hch.results 0 r (by rw [hrs]; rfl)
  have hel : tr0.execs = [e] := by
    match hx : tr0.execs with
    | [] => rw [hx] at he; cases he
    | [e1] => rw [hx] at he; cases he; rfl
    | e1 :: e2 :: l =>
      obtain ⟨_, hp, -⟩ := hch.invoked 1 e2 (by rw [hx]; rfl)
      cases hp
  obtain ⟨hn, hf⟩ := hlast e r hel her
  obtain ⟨hw, hpl, info, hi, hfs1⟩ := addNetwork_stored hrt hadd
  have hrep := (c16_faithful_network c net rt hrt _ _ _ r hadd).2 hf
  have hat : AtLeast net.network.cniVersion (0, 4, 0) := by
    simp only [List.mem_cons, List.not_mem_nil, or_false] at hver
    rcases hver with h | h | h <;> rw [h]
    · exact ⟨(0, 4, 0), (parseVersion_iff _ _).1 (by decide), by unfold LexLe LexLt; decide⟩
    · exact ⟨(1, 0, 0), (parseVersion_iff _ _).1 (by decide), by unfold LexLe LexLt; decide⟩
    · exact ⟨(1, 1, 0), (parseVersion_iff _ _).1 (by decide), by unfold LexLe LexLt; decide⟩
  obtain ⟨r', hr'⟩ : ∃ r', r.getAsVersion net.network.cniVersion = .ok r' := by
    apply getAsVersion_total hw hn
    · simp only [List.mem_cons, List.not_mem_nil, or_false] at hver
      rcases hver with h | h | h <;> rw [h] <;> decide
    · simp only [List.mem_cons, List.not_mem_nil, or_false] at hver
      rcases hver with h | h | h <;> rw [h] <;> decide
  refine ⟨e, r, r', hel, her, rfl, hr', ?_⟩
  intro c2 net2 rt2 fs2 tr fs3 o hsame hrt2 hv2 hkeep
  rw [← hv2] at hr' hat
  constructor
  · intro h
    obtain ⟨h1, h2⟩ := c16_check_network c c2 net net2 rt rt2 r hrt hadd hrep hcap hsame hkeep hrt2 o h hat r' hr'
    exact ⟨h1, (c15_check_network c2 net2 rt2 hrt2 _ _ _ _ h).1, h2⟩
  · intro h
    obtain ⟨h1, h2⟩ := c16_del_network c c2 net net2 rt rt2 r hrt hadd hrep hcap hsame hkeep hrt2 o h hat r' hr'
    refine ⟨h1, h2, ?_⟩
    rintro rfl
    have hpl2 : PlainNames net2.network.name rt2 := ⟨by rw [hsame.name]; exact hpl.name, by rw [hsame.cid]; exact hpl.cid, by rw [hsame.ifn]; exact hpl.ifn⟩
    have := (c14_del_network c2 net2 rt2 hrt2 hpl2 _ _ _ _ h).2.2.2.2 rfl rfl
    unfold entryPath at this ⊢
    rw [hsame.name, hsame.cid, hsame.ifn, hsame.dir] at this
    exact this

/-! ### concrete cases -/

namespace Example

/-- The result of the second plugin of the examples, and a result with an address, meet the conditions. One with an address that is missing or
written in a mixed form does not. -/
example : Faithful (.v100 { cniVersion := b!"1.0.0", dns := { domain := b!"d" } }) := by decide +kernel
example : (createFromBytes b!"{\"cniVersion\":\"1.0.0\",\"interfaces\":[{\"name\":\"e\",\"mtu\":1500}],\"ips\":[{\"address\":\"10.0.0.1/24\",\"interface\":0}],\"routes\":[{\"dst\":\"::/0\"}]}").toOption.map
    (fun r => (decide (Faithful r), networksIn r, integersIn r)) =
    some (true, [⟨[0, 0, 0, 0, 0, 0, 0, 0, 0, 0, 0xff, 0xff, 10, 0, 0, 1], [255, 255, 255, 0]⟩,
      ⟨List.replicate 16 0, List.replicate 16 0⟩], [1500, 0, 0, 0, 0]) := by decide +kernel
example : (createFromBytes b!"{\"cniVersion\":\"1.0.0\",\"routes\":[{}]}").toOption.map (fun r => decide (Faithful r)) = some false ∧
    (createFromBytes b!"{\"cniVersion\":\"1.0.0\",\"ips\":[{\"address\":\"::ffff:10.0.0.1/120\"}]}").toOption.map (fun r => decide (Faithful r)) = some false := by
  decide +kernel

instance (r : Result) : Decidable (NoNull r) := by cases r <;> unfold NoNull <;> infer_instance

/-- A list as text. Test data; models no code. -/
def listText : Bytes := b!"{\"name\":\"net\",\"cniVersion\":\"1.0.0\",\"plugins\":[{\"type\":\"a\",\"x\":1},{\"type\":\"b\"}]}"

/-- The list of the examples as it is loaded. Test data; models no code. -/
def loaded : NetConfList := (networkConfFromBytesWith versionSort listText).toOption.getD default

theorem loaded_eq : networkConfFromBytesWith versionSort listText = .ok loaded := by
  have h : (networkConfFromBytesWith versionSort listText).toOption.isSome = true := by decide +kernel
  unfold loaded
  cases hx : networkConfFromBytesWith versionSort listText with
  | ok L => rfl
  | err e => rw [hx] at h; cases h
  | panic => rw [hx] at h; cases h

/-- The hypotheses of `c64_life` are met by the list of the examples with its good plugins. -/
example : VersionSorter versionSort ∧ networkConfFromBytesWith versionSort listText = .ok loaded ∧ loaded.plugins.length = 2 ∧
    loaded.cniVersion = b!"1.0.0" ∧ (ValidName rt.containerID ∧ ValidName loaded.name ∧ ValidIfName rt.ifName) ∧ rt.OK ∧
    ∃ fs1 tr0 o0, Runs false (cfg.addNetworkList loaded rt) noFiles tr0 fs1 o0 ∧ AllFound tr0 ∧ AllReturned tr0 ∧
    (∀ e r, tr0.execs.getLast? = some e → Returned e r → NoNull r ∧ Faithful r) := by
  obtain ⟨tr, fs', o, h, hx⟩ := Prog.interp_exists (flt := false) (p := cfg.addNetworkList loaded rt) (fs := noFiles) (find := find) (exec := good)
    (b := (true, some (some (some true)))) (fun tr _ o => (o.toOption.isSome, tr.execs.getLast?.map fun e => e.resp.toOption.map fun out =>
      (resultOfOutput e.stdin out).toOption.map fun r => decide (NoNull r ∧ Faithful r))) (by decide +kernel)
  simp only [Prod.mk.injEq] at hx
  obtain ⟨h1, h2⟩ := hx
  have hk := (c63_add_list cfg loaded rt rt_ok (c24_loaded_sound _ versionSorter_insertion _ _ loaded_eq) (by decide +kernel) _ _ _ _ h).1
    (by cases o <;> simp_all [Out.toOption])
  refine ⟨versionSorter_insertion, loaded_eq, by decide +kernel, by decide +kernel, hk.1, rt_ok, fs', tr, o, h, hk.2.1, hk.2.2, ?_⟩
  intro e r he hr
  obtain ⟨out, hr1, hr2⟩ := hr
  rw [he] at h2
  simpa [hr1, hr2, Except.toOption, Out.toOption] using h2

/-- ADD, CHECK and DEL of that list: all succeed, and nothing is left. -/
example : ∃ tr fs' o, Runs false ((cfg.addNetworkList loaded rt).bind fun _ => (cfg.checkNetworkList loaded rt).bind fun _ =>
      cfg.delNetworkList loaded rt) noFiles tr fs' o ∧
    (tr.execs.map (fun e => e.path), fs' key, o.toOption) = ([b!"/bin/a", b!"/bin/b", b!"/bin/a", b!"/bin/b", b!"/bin/b", b!"/bin/a"], none, some ()) :=
  Prog.interp_exists (find := find) (exec := good) (fun tr fs' o => (tr.execs.map (fun e => e.path), fs' key, o.toOption)) (by decide +kernel)

/-- A single network. Test data; models no code. -/
def single : PluginConfig :=
  { network := { name := b!"net", cniVersion := b!"1.0.0", type := b!"a" }, bytes := b!"{\"cniVersion\":\"1.0.0\",\"name\":\"net\",\"type\":\"a\"}" }

theorem single_sound : Sound single :=
  sound_intro (ms := [(b!"cniVersion", .str b!"1.0.0"), (b!"name", .str b!"net"), (b!"type", .str b!"a")])
    (m := [(b!"cniVersion", .str b!"1.0.0"), (b!"name", .str b!"net"), (b!"type", .str b!"a")]) (c := single.network)
    (by decide +kernel) (by decide +kernel) (by decide +kernel) rfl (by decide)

/-- The hypotheses of `c64_life_network`, and what it says of the ADD. -/
example : ∃ fs1 tr0 o0 e r, Runs false (cfg.addNetwork single rt) noFiles tr0 fs1 o0 ∧ tr0.execs = [e] ∧ Returned e r ∧ o0 = .ok r := by
  obtain ⟨tr, fs', o, h, hx⟩ := Prog.interp_exists (flt := false) (p := cfg.addNetwork single rt) (fs := noFiles) (find := find) (exec := good)
    (b := (true, [some (some true)])) (fun tr _ o => (o.toOption.isSome, tr.execs.map fun e => e.resp.toOption.map fun out =>
      (resultOfOutput e.stdin out).toOption.map fun r => decide (NoNull r ∧ Faithful r))) (by decide +kernel)
  simp only [Prod.mk.injEq] at hx
  obtain ⟨h1, h2⟩ := hx
  have hk := (c63_add_network cfg single rt rt_ok single_sound _ _ _ _ h).1 (by cases o <;> simp_all [Out.toOption])
  obtain ⟨e, r, r', he, hr, ho, -⟩ := c64_life_network cfg single single_sound (by decide) rt rt_ok (by simp [rt]) hk.1 _ _ _ _ h hk.2.1 hk.2.2 (by
    intro e r he hr
    obtain ⟨out, hr1, hr2⟩ := hr
    rw [he] at h2
    simpa [hr1, hr2, Except.toOption, Out.toOption] using h2)
  exact ⟨fs', tr, o, e, r, h, he, hr, ho⟩

/-- ADD, CHECK and DEL of that network: all succeed, and nothing is left. -/
example : ∃ tr fs' o, Runs false ((cfg.addNetwork single rt).bind fun _ => (cfg.checkNetwork single rt).bind fun _ =>
      cfg.delNetwork single rt) noFiles tr fs' o ∧
    (tr.execs.map (fun e => e.path), fs' key, o.toOption) = ([b!"/bin/a", b!"/bin/a", b!"/bin/a"], none, some ()) :=
  Prog.interp_exists (find := find) (exec := good) (fun tr fs' o => (tr.execs.map (fun e => e.path), fs' key, o.toOption)) (by decide +kernel)

end Example

end Verif
