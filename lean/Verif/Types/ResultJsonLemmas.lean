/- Decoding inverts encoding for results, directly and through `map[string]interface{}`. -/
import Verif.Types.ResultJson
import Verif.Spec.ResultJson

namespace Verif
open Spec
set_option linter.unusedSimpArgs false

theorem mem_keys_jopt {c : Bool} {k0 k : Bytes} {v : Json} :
    k ∈ (jopt c k0 v).map Prod.fst ↔ c = true ∧ k = k0 := by
  cases c <;> simp [jopt]

theorem get?_jopt (c : Bool) (k0 f : Bytes) (v : Json) :
    GoMap.get? (jopt c k0 v) f = if k0 = f ∧ c = true then some v else none := by
  cases c <;> simp [jopt, GoMap.get?]

theorem get?_one (k0 f : Bytes) (v : Json) : GoMap.get? [(k0, v)] f = if k0 = f then some v else none := by
  simp [GoMap.get?]

theorem get?_cons (k0 f : Bytes) (v : Json) (l : List (Bytes × Json)) :
    GoMap.get? ((k0, v) :: l) f = if k0 = f then some v else GoMap.get? l f := rfl

theorem get?_nil' (f : Bytes) : GoMap.get? ([] : List (Bytes × Json)) f = none := rfl

theorem Json.Alike.str_inv {s : Bytes} {j : Json} (h : (Json.str s).Alike j) : j = .str s := by cases h; rfl
theorem Json.Alike.num_inv {s : Bytes} {j : Json} (h : (Json.num s).Alike j) : j = .num s := by cases h; rfl
theorem Json.Alike.null_inv {j : Json} (h : Json.null.Alike j) : j = .null := by cases h; rfl

theorem alike_int {n cur : Int} (hn : isInt64 n) {j : Json} (h : (jInt n).Alike j) : decInt cur j = some n := by
  rw [h.num_inv]; exact decInt_jInt hn

theorem alike_optInt {o : Option Int} {cur : Option Int} (hs : o.isSome = true) (hn : ∀ n, o = some n → isInt64 n) {j : Json}
    (h : (jPtr jInt o).Alike j) : decOptInt cur j = some o := by
  cases o with
  | none => simp at hs
  | some n => rw [h.num_inv]; exact decOptInt_jInt (hn n rfl)

theorem alike_ip {ip cur : IP} (hc : ip.Canon) {j : Json} (h : (jIP ip).Alike j) : decIP cur j = some ip := by
  rw [h.str_inv]; exact decIP_jIP hc

theorem alike_ipnet {n cur : IPNet} (hc : n.Canon) {j : Json} (h : (jIPNet n).Alike j) : decIPNet cur j = some n := by
  rw [h.str_inv]; exact decIPNet_jIPNet hc

theorem alike_strList {l cur : List Bytes} {j : Json} (h : (jStrList l).Alike j) : decStrList cur j = some l := by
  have : ∀ {l : List Bytes} {l' : List Json}, (Json.arr (l.map Json.str)).Alike (.arr l') → l' = l.map Json.str := by
    intro l l' h
    cases h with
    | arr hl h =>
      refine List.ext_getElem (by simpa using hl.symm) ?_
      intro i h1 h2
      have := h i (by simpa using h2) h1
      simp only [List.getElem_map] at this ⊢
      exact this.str_inv
  cases h with
  | arr hl h =>
    rw [this (.arr hl h)]
    exact decStrList_jStrList cur l

theorem alike_list {α : Type} {enc : α → Json} {dec : Json → Option α} {l cur : List α} {j : Json}
    (h : (Json.arr (l.map enc)).Alike j) (hrt : ∀ x ∈ l, ∀ v', (enc x).Alike v' → dec v' = some x) :
    decList dec cur j = some l := by
  obtain ⟨l', rfl, hm⟩ := h.elems hrt
  exact hm

theorem alike_ptr {α : Type} {enc : α → Json} {dec : Json → Option α} {o : Option α} {j : Json}
    (h : (jPtr enc o).Alike j) (hobj : ∀ a, ∃ ms, enc a = .obj ms)
    (hrt : ∀ x, o = some x → ∀ v', (enc x).Alike v' → dec v' = some x) : decPtr dec j = some o := by
  cases o with
  | none => rw [h.null_inv]; rfl
  | some a =>
    have := hrt a rfl j h
    obtain ⟨ms, e⟩ := hobj a
    rw [jPtr, e] at h
    cases h
    simp only [decPtr, this]
    rfl

theorem keys_append {a b : List (Bytes × Json)} {names : List Bytes} (ha : ∀ k ∈ a.map Prod.fst, k ∈ names)
    (hb : ∀ k ∈ b.map Prod.fst, k ∈ names) : ∀ k ∈ (a ++ b).map Prod.fst, k ∈ names := by
  intro k hk
  rw [List.map_append, List.mem_append] at hk
  exact hk.elim (ha k) (hb k)
theorem keys_jopt {c : Bool} {k0 : Bytes} {v : Json} {names : List Bytes} (h : k0 ∈ names) :
    ∀ k ∈ (jopt c k0 v).map Prod.fst, k ∈ names := by
  intro k hk; rw [mem_keys_jopt] at hk; exact hk.2 ▸ h
theorem keys_one {k0 : Bytes} {v : Json} {names : List Bytes} (h : k0 ∈ names) :
    ∀ k ∈ ([(k0, v)] : List (Bytes × Json)).map Prod.fst, k ∈ names := by
  intro k hk; simp at hk; exact hk ▸ h

/-- Key set side condition of a struct encoding. -/
macro "keys_tac" : tactic => `(tactic|
  (repeat' first | with_reducible refine keys_append ?_ ?_ | with_reducible refine keys_jopt ?_ | with_reducible refine keys_one ?_
   all_goals decide))

set_option hygiene false in
/-- An absent field has its zero value. -/
macro "none_tac" d:ident : tactic => `(tactic|
  (intro hget
   simp [$d:ident, GoMap.get?_append, get?_jopt, get?_one, get?_cons, get?_nil'] at hget
   try simp [hget]))

set_option hygiene false in
/-- A present field decodes. -/
macro "some_tac" d:ident "[" t:term "]" : tactic => `(tactic|
  (intro v v' hget hal
   simp [$d:ident, GoMap.get?_append, get?_jopt, get?_one, get?_cons, get?_nil'] at hget
   first
   | (obtain ⟨hc, rfl⟩ := hget; exact $t)
   | (subst hget; exact $t)))

theorem decDns_alike {d : Dns} {j : Json} (h : (jDns d).Alike j) : decDns {} j = some d := by
  obtain ⟨ms, rfl, hs, ha⟩ := h.structMembers rfl
  have hk : ∀ k ∈ d.members.map Prod.fst, k ∈ dnsFields := by unfold Dns.members; keys_tac
  have e1 : decAll decStrList ({} : Dns).nameservers (getField dnsFields b!"nameservers" ms) = some d.nameservers :=
    ha.dec hk _ (by none_tac Dns.members) (by some_tac Dns.members [alike_strList hal])
  have e2 : decAll decStr ({} : Dns).domain (getField dnsFields b!"domain" ms) = some d.domain :=
    ha.dec hk _ (by none_tac Dns.members) (by some_tac Dns.members [by rw [hal.str_inv]; rfl])
  have e3 : decAll decStrList ({} : Dns).search (getField dnsFields b!"search" ms) = some d.search :=
    ha.dec hk _ (by none_tac Dns.members) (by some_tac Dns.members [alike_strList hal])
  have e4 : decAll decStrList ({} : Dns).options (getField dnsFields b!"options" ms) = some d.options :=
    ha.dec hk _ (by none_tac Dns.members) (by some_tac Dns.members [alike_strList hal])
  simp only [decDns, hs, e1, e2, e3, e4, Option.bind_eq_bind, Option.bind_some]

theorem Fits.int64 {e : Bool} {n : Int} (h : Fits e n) : isInt64 n := by
  cases e
  · exact h
  · simp only [Fits, if_true] at h
    simp only [isInt64]; omega
theorem OptFits.int64 {e : Bool} {o : Option Int} (h : OptFits e o) : ∀ n, o = some n → isInt64 n :=
  fun n hn => Fits.int64 (h n hn)

theorem decRoute_alike {x : Route} {e : Bool} (hx : RouteOk e x) {j : Json} (h : (jRoute x).Alike j) : decRoute j = some x := by
  obtain ⟨ms, rfl, hs, ha⟩ := h.structMembers rfl
  have hk : ∀ k ∈ x.members.map Prod.fst, k ∈ routeFields := by unfold Route.members; keys_tac
  have e1 : decAll decIPNet {} (getField routeFields b!"dst" ms) = some x.dst :=
    ha.dec hk _ (by none_tac Route.members) (by some_tac Route.members [alike_ipnet hx.1 hal])
  have e2 : decAll decIP [] (getField routeFields b!"gw" ms) = some x.gw :=
    ha.dec hk _ (by none_tac Route.members) (by some_tac Route.members [alike_ip hx.2.1 hal])
  have e3 : decAll decInt 0 (getField routeFields b!"mtu" ms) = some x.mtu :=
    ha.dec hk _ (by none_tac Route.members) (by some_tac Route.members [alike_int (Fits.int64 hx.2.2.1) hal])
  have e4 : decAll decInt 0 (getField routeFields b!"advmss" ms) = some x.advmss :=
    ha.dec hk _ (by none_tac Route.members) (by some_tac Route.members [alike_int (Fits.int64 hx.2.2.2.1) hal])
  have e5 : decAll decInt 0 (getField routeFields b!"priority" ms) = some x.priority :=
    ha.dec hk _ (by none_tac Route.members) (by some_tac Route.members [alike_int (Fits.int64 hx.2.2.2.2.1) hal])
  have e6 : decAll decOptInt none (getField routeFields b!"table" ms) = some x.table :=
    ha.dec hk _ (by none_tac Route.members) (by some_tac Route.members [alike_optInt hc (OptFits.int64 hx.2.2.2.2.2.1) hal])
  have e7 : decAll decOptInt none (getField routeFields b!"scope" ms) = some x.scope :=
    ha.dec hk _ (by none_tac Route.members) (by some_tac Route.members [alike_optInt hc (OptFits.int64 hx.2.2.2.2.2.2) hal])
  simp only [decRoute, hs, e1, e2, e3, e4, e5, e6, e7, Option.bind_eq_bind, Option.bind_some]

theorem decIp020_alike {x : Ip020} {e : Bool} (hx : Ip020Ok e x) {j : Json} (h : (jIp020 x).Alike j) : decIp020 j = some x := by
  obtain ⟨ms, rfl, hs, ha⟩ := h.structMembers rfl
  have hk : ∀ k ∈ x.members.map Prod.fst, k ∈ ip020Fields := by unfold Ip020.members; keys_tac
  have e1 : decAll decIPNet {} (getField ip020Fields b!"ip" ms) = some x.ip :=
    ha.dec hk _ (by none_tac Ip020.members) (by some_tac Ip020.members [alike_ipnet hx.1 hal])
  have e2 : decAll decIP [] (getField ip020Fields b!"gateway" ms) = some x.gateway :=
    ha.dec hk _ (by none_tac Ip020.members) (by some_tac Ip020.members [alike_ip hx.2.1 hal])
  have e3 : decAll (decList decRoute) [] (getField ip020Fields b!"routes" ms) = some x.routes :=
    ha.dec hk _ (by none_tac Ip020.members) (by some_tac Ip020.members [alike_list hal (fun r hr v hv => decRoute_alike (hx.2.2 r hr) hv)])
  simp only [decIp020, hs, e1, e2, e3, Option.bind_eq_bind, Option.bind_some]

theorem decR020_alike {x : R020} {e : Bool} (hx : Representable e (.v020 x)) {j : Json} (h : (Json.obj x.members).Alike j) : decR020 j = some x := by
  obtain ⟨ms, rfl, hs, ha⟩ := h.structMembers rfl
  have hk : ∀ k ∈ x.members.map Prod.fst, k ∈ r020Fields := by unfold R020.members; keys_tac
  have e1 : decAll decStr [] (getField r020Fields b!"cniVersion" ms) = some x.cniVersion :=
    ha.dec hk _ (by none_tac R020.members) (by some_tac R020.members [by rw [hal.str_inv]; rfl])
  have e2 : decAll (fun _ => decPtr decIp020) none (getField r020Fields b!"ip4" ms) = some x.ip4 :=
    ha.dec hk _ (by none_tac R020.members) (by some_tac R020.members [alike_ptr hal (fun _ => ⟨_, rfl⟩) (fun i hi v hv => decIp020_alike (hx.1 i hi) hv)])
  have e3 : decAll (fun _ => decPtr decIp020) none (getField r020Fields b!"ip6" ms) = some x.ip6 :=
    ha.dec hk _ (by none_tac R020.members) (by some_tac R020.members [alike_ptr hal (fun _ => ⟨_, rfl⟩) (fun i hi v hv => decIp020_alike (hx.2.1 i hi) hv)])
  have e4 : decAll decDns {} (getField r020Fields b!"dns" ms) = some x.dns :=
    ha.dec hk _ (by none_tac R020.members) (by some_tac R020.members [decDns_alike hal])
  simp only [decR020, hs, e1, e2, e3, e4, Option.bind_eq_bind, Option.bind_some]

theorem decIntf040_alike {x : Intf040}  {j : Json} (h : (jIntf040 x).Alike j) : decIntf040 j = some x := by
  obtain ⟨ms, rfl, hs, ha⟩ := h.structMembers rfl
  have hk : ∀ k ∈ x.members.map Prod.fst, k ∈ intf040Fields := by unfold Intf040.members; keys_tac
  have e1 : decAll decStr [] (getField intf040Fields b!"name" ms) = some x.name :=
    ha.dec hk _ (by none_tac Intf040.members) (by some_tac Intf040.members [by rw [hal.str_inv]; rfl])
  have e2 : decAll decStr [] (getField intf040Fields b!"mac" ms) = some x.mac :=
    ha.dec hk _ (by none_tac Intf040.members) (by some_tac Intf040.members [by rw [hal.str_inv]; rfl])
  have e3 : decAll decStr [] (getField intf040Fields b!"sandbox" ms) = some x.sandbox :=
    ha.dec hk _ (by none_tac Intf040.members) (by some_tac Intf040.members [by rw [hal.str_inv]; rfl])
  simp only [decIntf040, hs, e1, e2, e3, Option.bind_eq_bind, Option.bind_some]

theorem decIp040_alike {x : Ip040} {e : Bool} (hx : Ip040Ok e x) {j : Json} (h : (jIp040 x).Alike j) : decIp040 j = some x := by
  obtain ⟨ms, rfl, hs, ha⟩ := h.structMembers rfl
  have hk : ∀ k ∈ x.members.map Prod.fst, k ∈ ip040Fields := by unfold Ip040.members; keys_tac
  have e1 : decAll decStr [] (getField ip040Fields b!"version" ms) = some x.version :=
    ha.dec hk _ (by none_tac Ip040.members) (by some_tac Ip040.members [by rw [hal.str_inv]; rfl])
  have e2 : decAll decOptInt none (getField ip040Fields b!"interface" ms) = some x.interface :=
    ha.dec hk _ (by none_tac Ip040.members) (by some_tac Ip040.members [alike_optInt hc (OptFits.int64 hx.2.1) hal])
  have e3 : decAll decIPNet {} (getField ip040Fields b!"address" ms) = some x.address :=
    ha.dec hk _ (by none_tac Ip040.members) (by some_tac Ip040.members [alike_ipnet hx.2.2.1 hal])
  have e4 : decAll decIP [] (getField ip040Fields b!"gateway" ms) = some x.gateway :=
    ha.dec hk _ (by none_tac Ip040.members) (by some_tac Ip040.members [alike_ip hx.2.2.2 hal])
  simp only [decIp040, hs, e1, e2, e3, e4, Option.bind_eq_bind, Option.bind_some]

theorem decR040_alike {x : R040} {e : Bool} (hx : Representable e (.v040 x)) {j : Json} (h : (Json.obj x.members).Alike j) : decR040 j = some x := by
  obtain ⟨ms, rfl, hs, ha⟩ := h.structMembers rfl
  have hk : ∀ k ∈ x.members.map Prod.fst, k ∈ resFields := by unfold R040.members; keys_tac
  have e1 : decAll decStr [] (getField resFields b!"cniVersion" ms) = some x.cniVersion :=
    ha.dec hk _ (by none_tac R040.members) (by some_tac R040.members [by rw [hal.str_inv]; rfl])
  have e2 : decAll (decList (decPtr decIntf040)) [] (getField resFields b!"interfaces" ms) = some x.interfaces :=
    ha.dec hk _ (by none_tac R040.members) (by some_tac R040.members [alike_list hal (fun o ho v hv => alike_ptr hv (fun _ => ⟨_, rfl⟩) (fun i hi v hv => decIntf040_alike hv))])
  have e3 : decAll (decList (decPtr decIp040)) [] (getField resFields b!"ips" ms) = some x.ips :=
    ha.dec hk _ (by none_tac R040.members) (by some_tac R040.members [alike_list hal (fun o ho v hv => alike_ptr hv (fun _ => ⟨_, rfl⟩) (fun i hi v hv => decIp040_alike (hx.2.1 o ho i hi) hv))])
  have e4 : decAll (decList (decPtr decRoute)) [] (getField resFields b!"routes" ms) = some x.routes :=
    ha.dec hk _ (by none_tac R040.members) (by some_tac R040.members [alike_list hal (fun o ho v hv => alike_ptr hv (fun _ => ⟨_, rfl⟩) (fun i hi v hv => decRoute_alike (hx.2.2.1 o ho i hi) hv))])
  have e5 : decAll decDns {} (getField resFields b!"dns" ms) = some x.dns :=
    ha.dec hk _ (by none_tac R040.members) (by some_tac R040.members [decDns_alike hal])
  simp only [decR040, hs, e1, e2, e3, e4, e5, Option.bind_eq_bind, Option.bind_some]

theorem decIntf100_alike {x : Intf100} {e : Bool} (hx : Intf100Ok e x) {j : Json} (h : (jIntf100 x).Alike j) : decIntf100 j = some x := by
  obtain ⟨ms, rfl, hs, ha⟩ := h.structMembers rfl
  have hk : ∀ k ∈ x.members.map Prod.fst, k ∈ intf100Fields := by unfold Intf100.members; keys_tac
  have e1 : decAll decStr [] (getField intf100Fields b!"name" ms) = some x.name :=
    ha.dec hk _ (by none_tac Intf100.members) (by some_tac Intf100.members [by rw [hal.str_inv]; rfl])
  have e2 : decAll decStr [] (getField intf100Fields b!"mac" ms) = some x.mac :=
    ha.dec hk _ (by none_tac Intf100.members) (by some_tac Intf100.members [by rw [hal.str_inv]; rfl])
  have e3 : decAll decInt 0 (getField intf100Fields b!"mtu" ms) = some x.mtu :=
    ha.dec hk _ (by none_tac Intf100.members) (by some_tac Intf100.members [alike_int (Fits.int64 hx.2.2.1) hal])
  have e4 : decAll decStr [] (getField intf100Fields b!"sandbox" ms) = some x.sandbox :=
    ha.dec hk _ (by none_tac Intf100.members) (by some_tac Intf100.members [by rw [hal.str_inv]; rfl])
  have e5 : decAll decStr [] (getField intf100Fields b!"socketPath" ms) = some x.socketPath :=
    ha.dec hk _ (by none_tac Intf100.members) (by some_tac Intf100.members [by rw [hal.str_inv]; rfl])
  have e6 : decAll decStr [] (getField intf100Fields b!"pciID" ms) = some x.pciID :=
    ha.dec hk _ (by none_tac Intf100.members) (by some_tac Intf100.members [by rw [hal.str_inv]; rfl])
  simp only [decIntf100, hs, e1, e2, e3, e4, e5, e6, Option.bind_eq_bind, Option.bind_some]

theorem decIp100_alike {x : Ip100} {e : Bool} (hx : Ip100Ok e x) {j : Json} (h : (jIp100 x).Alike j) : decIp100 j = some x := by
  obtain ⟨ms, rfl, hs, ha⟩ := h.structMembers rfl
  have hk : ∀ k ∈ x.members.map Prod.fst, k ∈ ip100Fields := by unfold Ip100.members; keys_tac
  have e1 : decAll decOptInt none (getField ip100Fields b!"interface" ms) = some x.interface :=
    ha.dec hk _ (by none_tac Ip100.members) (by some_tac Ip100.members [alike_optInt hc (OptFits.int64 hx.1) hal])
  have e2 : decAll decIPNet {} (getField ip100Fields b!"address" ms) = some x.address :=
    ha.dec hk _ (by none_tac Ip100.members) (by some_tac Ip100.members [alike_ipnet hx.2.1 hal])
  have e3 : decAll decIP [] (getField ip100Fields b!"gateway" ms) = some x.gateway :=
    ha.dec hk _ (by none_tac Ip100.members) (by some_tac Ip100.members [alike_ip hx.2.2 hal])
  simp only [decIp100, hs, e1, e2, e3, Option.bind_eq_bind, Option.bind_some]

theorem decR100_alike {x : R100} {e : Bool} (hx : Representable e (.v100 x)) {j : Json} (h : (Json.obj x.members).Alike j) : decR100 j = some x := by
  obtain ⟨ms, rfl, hs, ha⟩ := h.structMembers rfl
  have hk : ∀ k ∈ x.members.map Prod.fst, k ∈ resFields := by unfold R100.members; keys_tac
  have e1 : decAll decStr [] (getField resFields b!"cniVersion" ms) = some x.cniVersion :=
    ha.dec hk _ (by none_tac R100.members) (by some_tac R100.members [by rw [hal.str_inv]; rfl])
  have e2 : decAll (decList (decPtr decIntf100)) [] (getField resFields b!"interfaces" ms) = some x.interfaces :=
    ha.dec hk _ (by none_tac R100.members) (by some_tac R100.members [alike_list hal (fun o ho v hv => alike_ptr hv (fun _ => ⟨_, rfl⟩) (fun i hi v hv => decIntf100_alike (hx.1 o ho i hi) hv))])
  have e3 : decAll (decList (decPtr decIp100)) [] (getField resFields b!"ips" ms) = some x.ips :=
    ha.dec hk _ (by none_tac R100.members) (by some_tac R100.members [alike_list hal (fun o ho v hv => alike_ptr hv (fun _ => ⟨_, rfl⟩) (fun i hi v hv => decIp100_alike (hx.2.1 o ho i hi) hv))])
  have e4 : decAll (decList (decPtr decRoute)) [] (getField resFields b!"routes" ms) = some x.routes :=
    ha.dec hk _ (by none_tac R100.members) (by some_tac R100.members [alike_list hal (fun o ho v hv => alike_ptr hv (fun _ => ⟨_, rfl⟩) (fun i hi v hv => decRoute_alike (hx.2.2.1 o ho i hi) hv))])
  have e5 : decAll decDns {} (getField resFields b!"dns" ms) = some x.dns :=
    ha.dec hk _ (by none_tac R100.members) (by some_tac R100.members [decDns_alike hal])
  simp only [decR100, hs, e1, e2, e3, e4, e5, Option.bind_eq_bind, Option.bind_some]


/-! ### quality of the encodings -/

/-- Distinct keys, valid text, and (when `e`) exact numbers. Proof device: models no code. -/
def Json.Good (e : Bool) (j : Json) : Prop := j.Uniq ∧ j.WF ∧ (e = true → j.Exact)

/-- Proof device: models no code. -/
def GoodMembers (e : Bool) (ms : List (Bytes × Json)) : Prop := ∀ m ∈ ms, isUtf8 m.1 = true ∧ m.2.Good e

theorem good_obj {e : Bool} {ms : List (Bytes × Json)} (hk : (ms.map Prod.fst).Nodup) (h : GoodMembers e ms) :
    (Json.obj ms).Good e := by
  refine ⟨⟨hk, UniqMembers_iff.mpr fun m hm => (h m hm).2.1⟩, ?_, fun he => ?_⟩
  · simp only [Json.WF]; exact WFMembers_iff.mpr fun m hm => ⟨(h m hm).1, (h m hm).2.2.1⟩
  · simp only [Json.Exact]; exact ExactMembers_iff.mpr fun m hm => (h m hm).2.2.2 he

theorem good_arr {e : Bool} {l : List Json} (h : ∀ j ∈ l, j.Good e) : (Json.arr l).Good e := by
  refine ⟨UniqList_iff.mpr fun j hj => (h j hj).1, ?_, fun he => ?_⟩
  · simp only [Json.WF]; exact WFList_iff.mpr fun j hj => (h j hj).2.1
  · simp only [Json.Exact]; exact ExactList_iff.mpr fun j hj => (h j hj).2.2 he

theorem good_str {e : Bool} {s : Bytes} (h : isUtf8 s = true) : (Json.str s).Good e :=
  ⟨trivial, by simpa only [Json.WF] using h, fun _ => trivial⟩

theorem good_null {e : Bool} : Json.null.Good e := ⟨trivial, trivial, fun _ => trivial⟩

theorem good_int {e : Bool} {n : Int} (h : Fits e n) : (jInt n).Good e := by
  refine ⟨trivial, jInt_WF n, fun he => ?_⟩
  subst he
  simp only [Fits, if_true] at h
  exact normNum_itoa h

theorem good_optInt {e : Bool} {o : Option Int} (h : OptFits e o) : (jPtr jInt o).Good e := by
  cases o with
  | none => exact good_null
  | some n => exact good_int (h n rfl)

theorem good_strList {e : Bool} {l : List Bytes} (h : TextsOk l) : (jStrList l).Good e := by
  apply good_arr
  intro j hj
  obtain ⟨s, hs, rfl⟩ := List.mem_map.mp hj
  exact good_str (h s hs)

theorem good_ip {e : Bool} {ip : IP} (h : AddrOk ip) : (jIP ip).Good e := by
  refine ⟨trivial, jIP_WF h, fun _ => trivial⟩
theorem good_ipnet {e : Bool} {n : IPNet} (h : n.Canon) : (jIPNet n).Good e :=
  ⟨trivial, jIPNet_WF h, fun _ => trivial⟩

theorem good_list {α : Type} {e : Bool} {enc : α → Json} {l : List α} (h : ∀ x ∈ l, (enc x).Good e) :
    (Json.arr (l.map enc)).Good e := by
  apply good_arr
  intro j hj
  obtain ⟨s, hs, rfl⟩ := List.mem_map.mp hj
  exact h s hs

theorem good_ptr {α : Type} {e : Bool} {enc : α → Json} {o : Option α} (h : ∀ x, o = some x → (enc x).Good e) :
    (jPtr enc o).Good e := by
  cases o with
  | none => exact good_null
  | some a => exact h a rfl

theorem goodm_append {e : Bool} {a b : List (Bytes × Json)} (ha : GoodMembers e a) (hb : GoodMembers e b) :
    GoodMembers e (a ++ b) := by
  intro m hm; rw [List.mem_append] at hm; exact hm.elim (ha m) (hb m)
theorem goodm_jopt {e c : Bool} {k : Bytes} {v : Json} (hk : isUtf8 k = true) (hv : v.Good e) :
    GoodMembers e (jopt c k v) := by
  intro m hm
  cases c <;> simp [jopt] at hm
  subst hm; exact ⟨hk, hv⟩
theorem goodm_one {e : Bool} {k : Bytes} {v : Json} (hk : isUtf8 k = true) (hv : v.Good e) :
    GoodMembers e [(k, v)] := by
  intro m hm
  simp at hm
  subst hm; exact ⟨hk, hv⟩

theorem subl_append {a b : List (Bytes × Json)} {x y : List Bytes} (ha : (a.map Prod.fst).Sublist x)
    (hb : (b.map Prod.fst).Sublist y) : ((a ++ b).map Prod.fst).Sublist (x ++ y) := by
  rw [List.map_append]; exact List.Sublist.append ha hb
theorem subl_jopt {c : Bool} {k : Bytes} {v : Json} : ((jopt c k v).map Prod.fst).Sublist [k] := by
  cases c <;> simp [jopt]
theorem subl_one {k : Bytes} {v : Json} : (([(k, v)] : List (Bytes × Json)).map Prod.fst).Sublist [k] := by simp

/-- Distinct keys of a struct encoding. -/
macro "nodup_tac" : tactic => `(tactic|
  (apply List.Nodup.sublist
   · (repeat' first | with_reducible apply subl_append | with_reducible exact subl_jopt | with_reducible exact subl_one)
   · decide))

/-- Members of a struct encoding. -/
macro "goodm_tac" : tactic => `(tactic|
  (repeat' first | with_reducible refine goodm_append ?_ ?_ | with_reducible refine goodm_jopt (by decide) ?_ | with_reducible refine goodm_one (by decide) ?_))

theorem good_dns {e : Bool} {d : Dns} (h : DnsOk d) : (jDns d).Good e := by
  unfold jDns Dns.members
  refine good_obj (by nodup_tac) ?_
  goodm_tac
  · exact good_strList h.1
  · exact good_str h.2.1
  · exact good_strList h.2.2.1
  · exact good_strList h.2.2.2

theorem good_route {e : Bool} {r : Route} (h : RouteOk e r) : (jRoute r).Good e := by
  unfold jRoute Route.members
  obtain ⟨h1, h2, h3, h4, h5, h6, h7⟩ := h
  refine good_obj (by nodup_tac) ?_
  goodm_tac
  · exact good_ipnet h1
  · exact good_ip h2
  · exact good_int h3
  · exact good_int h4
  · exact good_int h5
  · exact good_optInt h6
  · exact good_optInt h7

theorem good_ip020 {e : Bool} {i : Ip020} (h : Ip020Ok e i) : (jIp020 i).Good e := by
  unfold jIp020 Ip020.members
  refine good_obj (by nodup_tac) ?_
  goodm_tac
  · exact good_ipnet h.1
  · exact good_ip h.2.1
  · exact good_list fun r hr => good_route (h.2.2 r hr)

theorem good_intf040 {e : Bool} {i : Intf040} (h : Intf040Ok i) : (jIntf040 i).Good e := by
  unfold jIntf040 Intf040.members
  refine good_obj (by nodup_tac) ?_
  goodm_tac
  · exact good_str h.1
  · exact good_str h.2.1
  · exact good_str h.2.2

theorem good_ip040 {e : Bool} {i : Ip040} (h : Ip040Ok e i) : (jIp040 i).Good e := by
  unfold jIp040 Ip040.members
  refine good_obj (by nodup_tac) ?_
  goodm_tac
  · exact good_str h.1
  · exact good_optInt h.2.1
  · exact good_ipnet h.2.2.1
  · exact good_ip h.2.2.2

theorem good_intf100 {e : Bool} {i : Intf100} (h : Intf100Ok e i) : (jIntf100 i).Good e := by
  unfold jIntf100 Intf100.members
  obtain ⟨h1, h2, h3, h4, h5, h6⟩ := h
  refine good_obj (by nodup_tac) ?_
  goodm_tac
  · exact good_str h1
  · exact good_str h2
  · exact good_int h3
  · exact good_str h4
  · exact good_str h5
  · exact good_str h6

theorem good_ip100 {e : Bool} {i : Ip100} (h : Ip100Ok e i) : (jIp100 i).Good e := by
  unfold jIp100 Ip100.members
  refine good_obj (by nodup_tac) ?_
  goodm_tac
  · exact good_optInt h.1
  · exact good_ipnet h.2.1
  · exact good_ip h.2.2

theorem good_r020 {e : Bool} {r : R020} (h : Representable e (.v020 r)) (hv : isUtf8 r.cniVersion = true) :
    (Json.obj r.members).Good e := by
  unfold R020.members
  refine good_obj (by nodup_tac) ?_
  goodm_tac
  · exact good_str hv
  · exact good_ptr fun i hi => good_ip020 (h.1 i hi)
  · exact good_ptr fun i hi => good_ip020 (h.2.1 i hi)
  · exact good_dns h.2.2

theorem good_r040 {e : Bool} {r : R040} (h : Representable e (.v040 r)) (hv : isUtf8 r.cniVersion = true) :
    (Json.obj r.members).Good e := by
  unfold R040.members
  refine good_obj (by nodup_tac) ?_
  goodm_tac
  · exact good_str hv
  · exact good_list fun o ho => good_ptr fun i hi => good_intf040 (h.1 o ho i hi)
  · exact good_list fun o ho => good_ptr fun i hi => good_ip040 (h.2.1 o ho i hi)
  · exact good_list fun o ho => good_ptr fun i hi => good_route (h.2.2.1 o ho i hi)
  · exact good_dns h.2.2.2

theorem good_r100 {e : Bool} {r : R100} (h : Representable e (.v100 r)) (hv : isUtf8 r.cniVersion = true) :
    (Json.obj r.members).Good e := by
  unfold R100.members
  refine good_obj (by nodup_tac) ?_
  goodm_tac
  · exact good_str hv
  · exact good_list fun o ho => good_ptr fun i hi => good_intf100 (h.1 o ho i hi)
  · exact good_list fun o ho => good_ptr fun i hi => good_ip100 (h.2.1 o ho i hi)
  · exact good_list fun o ho => good_ptr fun i hi => good_route (h.2.2.1 o ho i hi)
  · exact good_dns h.2.2.2

end Verif
