/- Reading back a written result gives the same result, directly or after passing through interface{}. -/
import Verif.Types.ResultJsonLemmas
import Verif.Spec.Results

namespace Verif
open Spec
set_option linter.unusedSimpArgs false

theorem Json.Alike.trans {a b : Json} (h : a.Alike b) : ∀ {c : Json}, b.Alike c → a.Alike c := by
  induction h with
  | null => intro c h; exact h
  | bool b => intro c h; exact h
  | num l => intro c h; exact h
  | str s => intro c h; exact h
  | arr hl h ih =>
    intro c hc
    cases hc with
    | arr hl' h' =>
      refine .arr (hl.trans hl') ?_
      intro i h1 h2
      exact ih i h1 (hl ▸ h1) (h' i (hl ▸ h1) h2)
  | obj g hn h0 h1 h2 ih =>
    intro c hc
    cases hc with
    | obj g' hn' h0' h1' h2' =>
      refine .obj g' hn' (fun k hk => h0' k (h0 k hk)) ?_ ?_
      · intro k v hv; exact h1' k _ (h1 k v hv)
      · intro k v hv; exact ih k v hv (h2' k _ (h1 k v hv))

mutual
theorem Json.toAny_uniq (j j' : Json) (h : j.toAny = some j') : j'.Uniq ∧ j'.Exact := by
  cases j with
  | null => simp [Json.toAny] at h; subst h; exact ⟨trivial, trivial⟩
  | bool b => simp [Json.toAny] at h; subst h; exact ⟨trivial, trivial⟩
  | str s => simp [Json.toAny] at h; subst h; exact ⟨trivial, trivial⟩
  | num l =>
    simp only [Json.toAny, Option.map_eq_some_iff] at h
    obtain ⟨l', hl, rfl⟩ := h
    exact ⟨trivial, normNum_idem hl⟩
  | arr l =>
    simp only [Json.toAny, Option.map_eq_some_iff] at h
    obtain ⟨l', hl, rfl⟩ := h
    exact Json.toAnyList_uniq l l' hl
  | obj l =>
    simp only [Json.toAny, Option.map_eq_some_iff] at h
    obtain ⟨l', hl, rfl⟩ := h
    have := Json.toAnyMembers_uniq l l' hl
    exact ⟨⟨GoMap.sorted_nodup (GoMap.sorted_ofList l'), UniqMembers_iff.mpr fun m hm => (this m (ofList_mem m hm)).1⟩,
      ExactMembers_iff.mpr fun m hm => (this m (ofList_mem m hm)).2⟩
theorem Json.toAnyList_uniq (l l' : List Json) (h : Json.toAnyList l = some l') : Json.UniqList l' ∧ Json.ExactList l' := by
  cases l with
  | nil => simp [Json.toAnyList] at h; subst h; exact ⟨trivial, trivial⟩
  | cons j l =>
    simp only [Json.toAnyList] at h
    split at h
    · rename_i j' l'' hj hl
      simp only [Option.some.injEq] at h; subst h
      have h1 := Json.toAny_uniq j j' hj
      have h2 := Json.toAnyList_uniq l l'' hl
      exact ⟨⟨h1.1, h2.1⟩, ⟨h1.2, h2.2⟩⟩
    · simp at h
theorem Json.toAnyMembers_uniq (l l' : List (Bytes × Json)) (h : Json.toAnyMembers l = some l') :
    ∀ m ∈ l', m.2.Uniq ∧ m.2.Exact := by
  cases l with
  | nil => simp [Json.toAnyMembers] at h; subst h; simp
  | cons m l =>
    obtain ⟨k, j⟩ := m
    simp only [Json.toAnyMembers] at h
    split at h
    · rename_i j' l'' hj hl
      simp only [Option.some.injEq] at h; subst h
      have h1 := Json.toAny_uniq j j' hj
      have h2 := Json.toAnyMembers_uniq l l'' hl
      intro m hm
      rcases List.mem_cons.1 hm with rfl | hm
      · exact h1
      · exact h2 m hm
    · simp at h
end

theorem Json.Good.toAny {j : Json} (h : j.Good true) : ∃ j', j.toAny = some j' ∧ j.Alike j' ∧ j'.Good true := by
  obtain ⟨j', h1, h2⟩ := Json.toAny_alike j h.1 (h.2.2 rfl)
  have := Json.toAny_uniq j j' h1
  exact ⟨j', h1, h2, this.1, Json.toAny_WF j j' h.2.1 h1, fun _ => this.2⟩

theorem Json.Good.weaken {e : Bool} {j : Json} (h : j.Good true) : j.Good e := ⟨h.1, h.2.1, fun _ => h.2.2 rfl⟩

theorem Json.Good.erase {e : Bool} {ms : List (Bytes × Json)} (h : (Json.obj ms).Good e) (k : Bytes) :
    (Json.obj (GoMap.erase ms k)).Good e := by
  have hsub : (GoMap.erase ms k).Sublist ms := List.filter_sublist
  refine good_obj (List.Nodup.sublist (hsub.map _) h.1.1) ?_
  intro m hm
  have hm := hsub.subset hm
  obtain ⟨h1, h2, h3⟩ := h
  simp only [Json.WF] at h2
  refine ⟨(WFMembers_iff.mp h2 m hm).1, UniqMembers_iff.mp h1.2 m hm, (WFMembers_iff.mp h2 m hm).2, fun he => ?_⟩
  have := h3 he
  simp only [Json.Exact] at this
  exact ExactMembers_iff.mp this m hm

theorem Dns.eq_of_isEmpty {d : Dns} (h : d.isEmpty = true) : d = {} := by
  cases d; simp [Dns.isEmpty] at h; simp [h]

theorem decR100_alike_erased {x : R100} {e : Bool} (hx : Representable e (.v100 x)) (hd : x.dns.isEmpty = true) {j : Json}
    (h : (Json.obj (GoMap.erase x.members b!"dns")).Alike j) : decR100 j = some x := by
  obtain ⟨ms, rfl, hs, ha⟩ := h.structMembers rfl
  have hk0 : ∀ k ∈ x.members.map Prod.fst, k ∈ resFields := by unfold R100.members; keys_tac
  have hk : ∀ k ∈ (GoMap.erase x.members b!"dns").map Prod.fst, k ∈ resFields := by
    intro k hk
    obtain ⟨m, hm, rfl⟩ := List.mem_map.mp hk
    exact hk0 _ (List.mem_map.mpr ⟨m, (List.mem_filter.mp hm).1, rfl⟩)
  have g1 : ∀ f, f ≠ b!"dns" → GoMap.get? (GoMap.erase x.members b!"dns") f = GoMap.get? x.members f := by
    intro f hf; rw [GoMap.get?_erase, if_neg (by simpa [eq_comm] using hf)]
  have e1 : decAll decStr [] (getField resFields b!"cniVersion" ms) = some x.cniVersion :=
    ha.dec hk _ (by rw [g1 _ (by decide)]; none_tac R100.members) (by rw [g1 _ (by decide)]; some_tac R100.members [by rw [hal.str_inv]; rfl])
  have e2 : decAll (decList (decPtr decIntf100)) [] (getField resFields b!"interfaces" ms) = some x.interfaces :=
    ha.dec hk _ (by rw [g1 _ (by decide)]; none_tac R100.members) (by rw [g1 _ (by decide)]; some_tac R100.members [alike_list hal (fun o ho v hv => alike_ptr hv (fun _ => ⟨_, rfl⟩) (fun i hi v hv => decIntf100_alike (hx.1 o ho i hi) hv))])
  have e3 : decAll (decList (decPtr decIp100)) [] (getField resFields b!"ips" ms) = some x.ips :=
    ha.dec hk _ (by rw [g1 _ (by decide)]; none_tac R100.members) (by rw [g1 _ (by decide)]; some_tac R100.members [alike_list hal (fun o ho v hv => alike_ptr hv (fun _ => ⟨_, rfl⟩) (fun i hi v hv => decIp100_alike (hx.2.1 o ho i hi) hv))])
  have e4 : decAll (decList (decPtr decRoute)) [] (getField resFields b!"routes" ms) = some x.routes :=
    ha.dec hk _ (by rw [g1 _ (by decide)]; none_tac R100.members) (by rw [g1 _ (by decide)]; some_tac R100.members [alike_list hal (fun o ho v hv => alike_ptr hv (fun _ => ⟨_, rfl⟩) (fun i hi v hv => decRoute_alike (hx.2.2.1 o ho i hi) hv))])
  have e5 : decAll decDns {} (getField resFields b!"dns" ms) = some x.dns := by
    refine ha.dec hk _ (fun _ => (Dns.eq_of_isEmpty hd).symm) ?_
    intro v v' hget
    rw [GoMap.get?_erase] at hget; simp at hget
  simp only [decR100, hs, e1, e2, e3, e4, e5, Option.bind_eq_bind, Option.bind_some]

theorem ipOk_of {ip : IP} (h : AddrOk ip) : ipOk ip = true := by
  rcases h with h | h <;> simp [ipOk, h]

theorem Representable.ipsOk {e : Bool} {r : Result} (h : Representable e r) : r.ipsOk = true := by
  have h020 : ∀ (o : Option Ip020), (∀ i, o = some i → Ip020Ok e i) → o.all Ip020.ipsOk = true := by
    intro o ho
    cases o with
    | none => rfl
    | some i =>
      obtain ⟨_, h2, h3⟩ := ho i rfl
      simp only [Option.all_some, Ip020.ipsOk, ipOk_of h2, Bool.true_and, List.all_eq_true, Route.ipsOk]
      exact fun r hr => ipOk_of (h3 r hr).2.1
  have hroutes : ∀ (l : List (Option Route)), EachOk (RouteOk e) l → l.all (fun x => x.all Route.ipsOk) = true := by
    intro l hl
    rw [List.all_eq_true]
    intro x hx
    cases x with
    | none => rfl
    | some a => exact ipOk_of (hl _ hx a rfl).2.1
  cases r with
  | v020 r => simp [Result.ipsOk, h020 _ h.1, h020 _ h.2.1]
  | v040 r =>
    simp only [Result.ipsOk, Bool.and_eq_true]
    refine ⟨?_, hroutes _ h.2.2.1⟩
    rw [List.all_eq_true]
    intro x hx
    cases x with
    | none => rfl
    | some a => exact ipOk_of (h.2.1 _ hx a rfl).2.2.2
  | v100 r =>
    simp only [Result.ipsOk, Bool.and_eq_true]
    refine ⟨?_, hroutes _ h.2.2.1⟩
    rw [List.all_eq_true]
    intro x hx
    cases x with
    | none => rfl
    | some a => exact ipOk_of (h.2.1 _ hx a rfl).2.2

theorem mem_old {v : Bytes} (h : v ∈ old020) : v ∈ supported020 ∧ v ≠ [] ∧ isUtf8 v = true := by
  simp [old020] at h; rcases h with rfl | rfl <;> decide
theorem mem_mid {v : Bytes} (h : v ∈ mid040) : v ∉ supported020 ∧ v ∈ supported040 ∧ isUtf8 v = true := by
  simp [mid040] at h; rcases h with rfl | rfl | rfl <;> decide
theorem mem_new {v : Bytes} (h : v ∈ new100) : v ∉ supported020 ∧ v ∉ supported040 ∧ v ∈ supported100 ∧ isUtf8 v = true := by
  simp [new100] at h; rcases h with rfl | rfl <;> decide

/-- The two 1.x versions always go through float64; the older ones only when re-read as interface{}.
Proof device: models no code. -/
def needsExact : Result → Bool
  | .v100 _ => true
  | _ => false

/-- A representable result has a JSON form that every reader takes back to the same result. -/
theorem Result.json_reads {e : Bool} {r : Result} (hw : WellTyped r) (h : Representable e r) (he : needsExact r = true → e = true) :
    ∃ j, r.json = some j ∧ j.Good e ∧ ∀ j', j.Alike j' → createJson r.version j' = .ok r := by
  have hips := Representable.ipsOk h
  cases r with
  | v020 r =>
    obtain ⟨h1, h2, h3⟩ := mem_old hw
    refine ⟨.obj r.members, by simp [Result.json, hips], good_r020 h h3, ?_⟩
    intro j' hj
    simp [createJson, Result.version, h1, h2, decR020_alike h hj]
  | v040 r =>
    obtain ⟨h1, h2, h3⟩ := mem_mid hw
    refine ⟨.obj r.members, by simp [Result.json, hips], good_r040 h h3, ?_⟩
    intro j' hj
    simp [createJson, Result.version, h1, h2, decR040_alike h hj]
  | v100 r =>
    obtain ⟨h1, h2, h3, h4⟩ := mem_new hw
    obtain rfl := he rfl
    obtain ⟨j1, ha, hal, hg⟩ := (good_r100 h h4).toAny
    have hobj : ∃ ms, j1 = .obj ms := by
      obtain ⟨ms, e, _⟩ := hal.structMembers rfl
      exact ⟨ms, e⟩
    obtain ⟨ms, rfl⟩ := hobj
    by_cases hd : r.dns.isEmpty = true
    · refine ⟨.obj (GoMap.erase ms b!"dns"), by simp [Result.json, hips, R100.json, ha, hd], hg.erase _, ?_⟩
      intro j' hj
      have := decR100_alike_erased h hd ((hal.erase b!"dns").trans hj)
      simp [createJson, Result.version, h1, h2, h3, this]
    · refine ⟨.obj ms, by simp [Result.json, hips, R100.json, ha, hd], hg, ?_⟩
      intro j' hj
      have := decR100_alike h (hal.trans hj)
      simp [createJson, Result.version, h1, h2, h3, this]

/-! ### 4-byte addresses print like their 16-byte forms -/

theorem len4 {ip : Bytes} (h : ip.length = 4) : ∃ a b c d, ip = [a, b, c, d] := by
  match ip, h with
  | [a, b, c, d], _ => exact ⟨a, b, c, d, rfl⟩

theorem jIP_std (ip : IP) : jIP (std16 ip) = jIP ip := by
  simp only [std16]
  split
  · rename_i h
    obtain ⟨a, b, c, d, rfl⟩ := len4 h
    simp only [jIP]
    rw [if_neg (by simp), if_neg (by simp), IP.str_v4]
    rfl
  · rfl

theorem std16_nil (ip : IP) : std16 ip = [] ↔ ip = [] := by
  simp only [std16]; split
  · rename_i h; constructor <;> (intro h'; simp_all)
  · rfl

theorem to4_std (ip : IP) : IP.to4 (std16 ip) = IP.to4 ip := by
  simp only [std16]; split
  · rename_i h
    obtain ⟨a, b, c, d, rfl⟩ := len4 h
    simp [IP.to4, v4InV6Prefix]
  · rfl

theorem to4_len {ip q : IP} (h : IP.to4 ip = some q) : q.length = 4 := by
  unfold IP.to4 at h
  split at h
  · simp at h; subst h; assumption
  · split at h
    · simp at h; subst h
      rename_i h1 h2
      simp [h2.1]
    · simp at h

theorem IPNet.norm_std (n : IPNet) : (stdNet n).norm = n.norm := by
  have h0 : IP.to4 n.ip = none ∨ ∃ q, IP.to4 n.ip = some q := by cases IP.to4 n.ip <;> simp
  rcases h0 with h | ⟨q, h⟩
  · have : n.ip.length ≠ 4 := by
      intro h4; simp [IP.to4, h4] at h
    simp [IPNet.norm, stdNet, to4_std, h, std16, this]
  · have hq := to4_len h
    by_cases hm : n.mask.length = 16
    · simp [IPNet.norm, stdNet, to4_std, h, hq, hm]
    · simp [IPNet.norm, stdNet, to4_std, h, hq, hm]

theorem dec_std16 (ip : IP) : decide (std16 ip ≠ []) = decide (ip ≠ []) :=
  decide_eq_decide.mpr (not_congr (std16_nil ip))
theorem dec_map {α β : Type} [DecidableEq α] [DecidableEq β] (f : α → β) (l : List α) :
    decide (l.map f ≠ []) = decide (l ≠ []) :=
  decide_eq_decide.mpr (not_congr List.map_eq_nil_iff)

theorem jIPNet_std (n : IPNet) : jIPNet (stdNet n) = jIPNet n := by
  simp only [jIPNet, IPNet.str, IPNet.norm_std]

theorem jRoute_std (r : Route) : jRoute (stdRoute r) = jRoute r := by
  simp only [jRoute, Route.members, stdRoute, jIPNet_std, jIP_std]
  congr 8
  exact decide_eq_decide.mpr (not_congr (std16_nil r.gw))
theorem jIp020_std (r : Ip020) : jIp020 (stdIp020 r) = jIp020 r := by
  have : (jRoute ∘ stdRoute) = jRoute := funext jRoute_std
  simp [jIp020, Ip020.members, stdIp020, jIPNet_std, jIP_std, std16_nil, List.map_map, this]
theorem jIp040_std (r : Ip040) : jIp040 (stdIp040 r) = jIp040 r := by
  simp [jIp040, Ip040.members, stdIp040, jIPNet_std, jIP_std, std16_nil]
theorem jIp100_std (r : Ip100) : jIp100 (stdIp100 r) = jIp100 r := by
  simp [jIp100, Ip100.members, stdIp100, jIPNet_std, jIP_std, std16_nil]

theorem jPtr_map {α : Type} {enc : α → Json} {f : α → α} (h : ∀ a, enc (f a) = enc a) (o : Option α) :
    jPtr enc (o.map f) = jPtr enc o := by
  cases o <;> simp [jPtr, h]
theorem map_jPtr {α : Type} {enc : α → Json} {f : α → α} (h : ∀ a, enc (f a) = enc a) (l : List (Option α)) :
    (l.map (Option.map f)).map (jPtr enc) = l.map (jPtr enc) := by
  simp [jPtr_map h]

theorem ipOk_std (ip : IP) : ipOk (std16 ip) = ipOk ip := by
  simp only [std16]
  split
  · rename_i h; simp [ipOk, h]
  · rfl

theorem ipsOk_std (r : Result) : (std r).ipsOk = r.ipsOk := by
  have hr : ∀ x : Route, (stdRoute x).ipsOk = x.ipsOk := fun x => by simp [Route.ipsOk, stdRoute, ipOk_std]
  have h2 : ∀ o : Option Ip020, (o.map stdIp020).all Ip020.ipsOk = o.all Ip020.ipsOk := by
    intro o; cases o
    · rfl
    · simp [Ip020.ipsOk, stdIp020, ipOk_std, List.all_map]
      congr 1; congr 1; funext x; exact hr x
  have hrs : ∀ l : List (Option Route), (l.map (Option.map stdRoute)).all (fun x => x.all Route.ipsOk) = l.all (fun x => x.all Route.ipsOk) := by
    intro l; rw [List.all_map]; congr 1; funext o; cases o
    · rfl
    · simp [hr]
  cases r with
  | v020 r => simp [Result.ipsOk, std, h2]
  | v040 r =>
    simp only [Result.ipsOk, std, hrs]
    congr 1
    rw [List.all_map]; congr 1; funext o; cases o
    · rfl
    · simp [stdIp040, ipOk_std]
  | v100 r =>
    simp only [Result.ipsOk, std, hrs]
    congr 1
    rw [List.all_map]; congr 1; funext o; cases o
    · rfl
    · simp [stdIp100, ipOk_std]

theorem json_std (r : Result) : (std r).json = r.json := by
  simp only [Result.json, ipsOk_std]
  cases r with
  | v020 r =>
    simp only [std, R020.members, jPtr_map jIp020_std, Option.isSome_map]
  | v040 r =>
    simp only [std, R040.members, map_jPtr jIp040_std, map_jPtr jRoute_std, dec_map]
  | v100 r =>
    simp only [std, R100.json, R100.members, map_jPtr jIp100_std, map_jPtr jRoute_std, dec_map]

theorem version_std (r : Result) : (std r).version = r.version := by cases r <;> rfl
theorem wellTyped_std (r : Result) : WellTyped (std r) ↔ WellTyped r := by cases r <;> rfl

end Verif
