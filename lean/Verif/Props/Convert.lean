/-
C27–C31: conversion of results between spec versions.
-/
import Verif.Types.ConvertLemmas
import Verif.Spec.Results

namespace Verif
open Spec
set_option linter.unusedSimpArgs false

theorem is4_iff (ip : IP) : Is4 ip ↔ (IP.to4 ip).isSome := by
  unfold Is4 IP.to4 v4InV6Prefix
  by_cases h : ip.length = 4
  · simp [h]
  · by_cases h2 : ip.length = 16
    · by_cases h3 : ip.take 12 = [0,0,0,0, 0,0,0,0, 0,0,0xff,0xff]
      · simp [h, h2, h3]
      · simp [h, h2, h3]
    · simp [h, h2]

/-! ### which function serves which pair -/

theorem find_020_020 : ∀ v ∈ old020, ∀ w ∈ old020, v ≠ w →
    findConverter v w = some (if w = b!"0.2.0" then .c020From010 else .c020To010) := by decide
theorem find_020_040 : ∀ v ∈ old020, ∀ w ∈ mid040, findConverter v w = some .c040From02x := by decide
theorem find_020_100 : ∀ v ∈ old020, ∀ w ∈ new100, findConverter v w = some .c100From02x := by decide
theorem find_040_020 : ∀ v ∈ mid040, ∀ w ∈ old020, findConverter v w = some .c040To02x := by decide
theorem find_040_040 : ∀ v ∈ mid040, ∀ w ∈ mid040, v ≠ w → findConverter v w = some .c040Internal := by decide
theorem find_040_100 : ∀ v ∈ mid040, ∀ w ∈ new100, findConverter v w = some .c100From04x := by decide
theorem find_100_020 : ∀ v ∈ new100, ∀ w ∈ old020, findConverter v w = some .c100To02x := by decide
theorem find_100_040 : ∀ v ∈ new100, ∀ w ∈ mid040, findConverter v w = some .c100To04x := by decide
theorem find_100_100 : ∀ v ∈ new100, ∀ w ∈ new100, v ≠ w → findConverter v w = some .c100From100 := by decide
theorem old_ne_mid : ∀ v ∈ old020, ∀ w ∈ mid040, v ≠ w := by decide
theorem old_ne_new : ∀ v ∈ old020, ∀ w ∈ new100, v ≠ w := by decide
theorem mid_ne_new : ∀ v ∈ mid040, ∀ w ∈ new100, v ≠ w := by decide
theorem old_ne_nil : ∀ v ∈ old020, v ≠ [] := by decide
theorem mid_ne_nil : ∀ v ∈ mid040, v ≠ [] := by decide
theorem new_ne_nil : ∀ v ∈ new100, v ≠ [] := by decide
theorem spec_split : ∀ w ∈ specVersions, w ∈ old020 ∨ w ∈ mid040 ∨ w ∈ new100 := by decide

/-- The versions whose results have a given Go type. -/
def versOf : Ty → List Bytes
  | .t020 => old020
  | .t040 => mid040
  | .t100 => new100

/-! ### closed forms -/

theorem convert_020_020 (r : R020) {w : Bytes} (hv : r.cniVersion ∈ old020) (hw : w ∈ old020) :
    convert (.v020 r) w = .ok (.v020 { r with cniVersion := w }) := by
  by_cases hne : r.cniVersion = w
  · subst hne; exact convert_same (.v020 r) (old_ne_nil _ hw)
  · rw [convert_of_find (r := .v020 r) (old_ne_nil _ hw) hne (find_020_020 _ hv _ hw hne)]
    by_cases h2 : w = b!"0.2.0"
    · simp [h2, applyConvFlat, convertFrom010, map_ip020copy]
    · have h1 : w = b!"0.1.0" := by simp [old020] at hw; simpa [h2] using hw
      subst h1
      simp [applyConvFlat, convertTo010, map_ip020copy]

/-- The list form of a 0.2.0 result. -/
def upFrom020 (r : R020) (w : Bytes) : R040 :=
  { cniVersion := w, dns := r.dns
    ips := (r.ip4.toList.map fun i => some { version := b!"4", address := i.ip, gateway := i.gateway })
        ++ (r.ip6.toList.map fun i => some { version := b!"6", address := i.ip, gateway := i.gateway })
    routes := (r.ip4.toList.flatMap fun i => i.routes.map some)
        ++ (r.ip6.toList.flatMap fun i => i.routes.map some) }

theorem convert040From02x_eq (r : R020) (w : Bytes) :
    convert040From02x (.v020 r) w = .ok (.v040 (upFrom020 r w)) := by
  cases r with | mk v i4 i6 d => cases i4 <;> cases i6 <;>
    simp [convert040From02x, upFrom020, convert020IPConfig, Route.copy_eq]

theorem convert_020_040 (r : R020) {w : Bytes} (hv : r.cniVersion ∈ old020) (hw : w ∈ mid040) :
    convert (.v020 r) w = .ok (.v040 (upFrom020 r w)) := by
  rw [convert_of_find (r := .v020 r) (mid_ne_nil _ hw) (old_ne_mid _ hv _ hw) (find_020_040 _ hv _ hw)]
  exact convert040From02x_eq r w

theorem convert_040_040 (r : R040) {w : Bytes} (hv : r.cniVersion ∈ mid040) (hw : w ∈ mid040) :
    convert (.v040 r) w = .ok (.v040 { r with cniVersion := w }) := by
  by_cases hne : r.cniVersion = w
  · subst hne; exact convert_same (.v040 r) (mid_ne_nil _ hw)
  · rw [convert_of_find (r := .v040 r) (mid_ne_nil _ hw) hne (find_040_040 _ hv _ hw hne)]
    simp [applyConvFlat, convertInternal, map_routecopy]

theorem convert_100_100 (r : R100) {w : Bytes} (hv : r.cniVersion ∈ new100) (hw : w ∈ new100) :
    convert (.v100 r) w = .ok (.v100 { r with cniVersion := w }) := by
  by_cases hne : r.cniVersion = w
  · subst hne; exact convert_same (.v100 r) (new_ne_nil _ hw)
  · rw [convert_of_find (r := .v100 r) (new_ne_nil _ hw) hne (find_100_100 _ hv _ hw hne)]
    simp [applyConvFlat, convertFrom100]

theorem convertFrom04x_eq (v w : Bytes) (ifs : List Intf040) (ips : List Ip040) (rs : List (Option Route)) (d : Dns) :
    convertFrom04x (.v040 ⟨v, ifs.map some, ips.map some, rs, d⟩) w
      = .ok (.v100 ⟨w, ifs.map (fun i => some (convertInterfaceFrom040 i)),
          ips.map (fun i => some (convertIPConfigFrom040 i)), rs, d⟩) := by
  simp [convertFrom04x, mapDeref_some, map_routecopy]

theorem convertTo04x_eq (v w : Bytes) (ifs : List Intf100) (ips : List Ip100) (rs : List (Option Route)) (d : Dns) :
    convertTo04x (.v100 ⟨v, ifs.map some, ips.map some, rs, d⟩) w
      = .ok (.v040 ⟨w, ifs.map (fun i => some (convertInterfaceTo040 i)),
          ips.map (fun i => some (convertIPConfigTo040 i)), rs, d⟩) := by
  simp [convertTo04x, mapDeref_some, map_routecopy]

/-- What down-conversion keeps: the first address of each family, routes grouped by family. -/
def downTo020 (w : Bytes) (ips : List Ip040) (rs : List Route) (d : Dns) : Out Result :=
  let a4 := ips.find? fun x => x.version = b!"4"
  let a6 := ips.find? fun x => x.version = b!"6"
  if a4 = none ∧ a6 = none then .err (.text b!"cannot convert: no valid IP addresses")
  else .ok (.v020 { cniVersion := w, dns := d
                    ip4 := a4.map fun x => ⟨x.address, x.gateway, (rs.filter routeIs4).map toRoute020⟩
                    ip6 := a6.map fun x => ⟨x.address, x.gateway, (rs.filter fun r => !routeIs4 r).map toRoute020⟩ })

theorem convert040To02x_eq (v w : Bytes) (ifs : List (Option Intf040)) (ips : List Ip040) (rs : List Route) (d : Dns) :
    convert040To02x (.v040 ⟨v, ifs, ips.map some, rs.map some, d⟩) w = downTo020 w ips rs d := by
  simp only [convert040To02x, pickIPs_some _ _ _ (by simp : ¬ ((none : Option Ip020).isSome ∧ (none : Option Ip020).isSome)),
    pickRoutes_some, downTo020]
  cases ips.find? (fun x => x.version = b!"4") <;> cases ips.find? (fun x => x.version = b!"6") <;>
    simp [toIp020]

/-! ### C27 -/

/-- C27: for two different spec versions exactly one conversion is registered. -/
theorem c27_one_converter : ∀ v ∈ specVersions, ∀ w ∈ specVersions, v ≠ w →
    (converters.filter fun row => row.1 = v ∧ w ∈ row.2.1).length = 1 := by decide

/-- C27: converting to the version the result already has returns it unchanged. -/
theorem c27_same_version (r : Result) (h : r.version ≠ []) : convert r r.version = .ok r :=
  convert_same r h

/-- C27: a successful conversion yields a result that reports the requested version (`""` stands
for 0.1.0) and whose Go type is the one of that version. -/
theorem c27_reports_requested {r r' : Result} {w : Bytes} (h : convert r w = .ok r') :
    r'.version = (if w = [] then b!"0.1.0" else w) ∧ (WellTyped r → WellTyped r') := by
  have key : ∀ w : Bytes, w ≠ [] → convert r w = .ok r' → r'.version = w ∧ (WellTyped r → WellTyped r') := by
    intro w hw h
    by_cases hne : r.version = w
    · subst hne; rw [convert_same r hw] at h; cases h; exact ⟨rfl, id⟩
    · cases hc : findConverter r.version w with
      | none => obtain ⟨e, he⟩ := convert_none hw hne hc; rw [he] at h; cases h
      | some c =>
        rw [convert_of_find hw hne hc] at h
        obtain ⟨row, hm, h1, h2, h3⟩ := findConverter_mem hc
        have hw' : w ∈ versOf c.dst := by
          have : ∀ row ∈ converters, ∀ w ∈ row.2.1, w ∈ versOf row.2.2.dst := by decide
          exact h3 ▸ this row hm w h2
        have e040 : ∀ {r r' : Result}, convert040To02x r w = .ok r' → r'.version = w ∧ r'.ty = .t020 := by
          intro r r' h
          unfold convert040To02x at h
          repeat' split at h
          all_goals first | (simp at h; done) | (simp at h; rw [← h]; exact ⟨rfl, rfl⟩)
        cases c <;> simp only [applyConvFlat, Conv.dst, versOf] at h hw'
        case c020From010 =>
          unfold convertFrom010 at h
          split at h
          · cases h
          · rename_i hw2
            have hw2 : w = b!"0.2.0" := Classical.byContradiction hw2
            split at h <;> cases h
            exact ⟨hw2.symm, fun _ => by show b!"0.2.0" ∈ old020; decide⟩
        case c020To010 =>
          unfold convertTo010 at h
          split at h
          · cases h
          · rename_i hw2
            have hw2 : w = b!"0.1.0" := Classical.byContradiction hw2
            split at h <;> cases h
            exact ⟨hw2.symm, fun _ => by show b!"0.1.0" ∈ old020; decide⟩
        case c040From02x =>
          unfold convert040From02x at h
          split at h <;> cases h
          exact ⟨rfl, fun _ => hw'⟩
        case c040Internal =>
          unfold convertInternal at h
          split at h <;> cases h
          exact ⟨rfl, fun _ => hw'⟩
        case c040To02x =>
          obtain ⟨hv, ht⟩ := e040 h
          cases r' <;> cases ht
          exact ⟨hv, fun _ => by change Result.version (.v020 _) ∈ old020; rw [hv]; exact hw'⟩
        case c100From02x =>
          split at h <;> try cases h
          obtain ⟨hv, ht⟩ := convertFrom04x_version h
          cases r' <;> cases ht
          exact ⟨hv, fun _ => by change Result.version (.v100 _) ∈ new100; rw [hv]; exact hw'⟩
        case c100From04x =>
          obtain ⟨hv, ht⟩ := convertFrom04x_version h
          cases r' <;> cases ht
          exact ⟨hv, fun _ => by change Result.version (.v100 _) ∈ new100; rw [hv]; exact hw'⟩
        case c100From100 =>
          unfold convertFrom100 at h
          split at h <;> cases h
          exact ⟨rfl, fun _ => hw'⟩
        case c100To04x =>
          obtain ⟨hv, ht⟩ := convertTo04x_version h
          cases r' <;> cases ht
          exact ⟨hv, fun _ => by change Result.version (.v040 _) ∈ mid040; rw [hv]; exact hw'⟩
        case c100To02x =>
          split at h <;> try cases h
          obtain ⟨hv, ht⟩ := e040 h
          cases r' <;> cases ht
          exact ⟨hv, fun _ => by change Result.version (.v020 _) ∈ old020; rw [hv]; exact hw'⟩
  by_cases hw : w = []
  · subst hw
    rw [convert_empty] at h
    simpa using key _ (by decide) h
  · simpa [hw] using key w hw h

/-- C27: converting to anything that is not a spec version fails (unless it is the result's own
version string). -/
theorem c27_unknown_target (r : Result) {w : Bytes} (hw : w ≠ []) (hs : w ∉ specVersions)
    (hne : r.version ≠ w) : ∃ e, convert r w = .err e := by
  apply convert_none hw hne
  cases hc : findConverter r.version w with
  | none => rfl
  | some c =>
    obtain ⟨row, hm, _, h2, _⟩ := findConverter_mem hc
    have : ∀ row ∈ converters, ∀ w ∈ row.2.1, w ∈ specVersions := by decide
    exact absurd (this row hm w h2) hs

/-- C27: a result in an unknown version cannot be converted to any other version. -/
theorem c27_unknown_source (r : Result) {w : Bytes} (hw : w ≠ []) (hs : r.version ∉ specVersions)
    (hne : r.version ≠ w) : ∃ e, convert r w = .err e := by
  apply convert_none hw hne
  cases hc : findConverter r.version w with
  | none => rfl
  | some c =>
    obtain ⟨row, hm, h1, _, _⟩ := findConverter_mem hc
    have : ∀ row ∈ converters, row.1 ∈ specVersions := by decide
    exact absurd (h1 ▸ this row hm) hs

/-- The result has an address of some family. -/
def HasIP : Result → Prop
  | .v020 _ => True
  | .v040 r => ∃ x, some x ∈ r.ips ∧ (x.version = b!"4" ∨ x.version = b!"6")
  | .v100 r => ∃ x : Ip100, some x ∈ r.ips

/-- C27: every well-typed result without null entries converts to every spec version, the only
exception being a result without any address going to 0.1.0/0.2.0, which is an error. -/
theorem c27_every_pair (r : Result) (ht : WellTyped r) (hn : NoNull r) {w : Bytes} (hw : w ∈ specVersions) :
    (∃ r', convert r w = .ok r') ∨ (w ∈ old020 ∧ ¬ HasIP r ∧ ∃ e, convert r w = .err e) := by
  have down : ∀ (w : Bytes) (ips : List Ip040) (rs : List Route) (d : Dns),
      (∃ r', downTo020 w ips rs d = .ok r') ∨
      ((¬ ∃ x ∈ ips, x.version = b!"4" ∨ x.version = b!"6") ∧ ∃ e, downTo020 w ips rs d = .err e) := by
    intro w ips rs d
    unfold downTo020
    simp only []
    split
    · rename_i hh
      right
      refine ⟨?_, _, rfl⟩
      rintro ⟨x, hx, h⟩
      simp only [List.find?_eq_none] at hh
      rcases h with h | h
      · exact absurd h (by simpa using hh.1 x hx)
      · exact absurd h (by simpa using hh.2 x hx)
    · exact Or.inl ⟨_, rfl⟩
  rcases spec_split w hw with hw | hw | hw
  · cases r with
    | v020 r => exact Or.inl ⟨_, convert_020_020 r ht hw⟩
    | v040 r =>
      obtain ⟨v, ifs, ips, rs, d⟩ := r
      obtain ⟨h1, h2, h3⟩ := hn
      obtain ⟨ips, rfl⟩ := exists_map_some h2
      obtain ⟨rs, rfl⟩ := exists_map_some h3
      have e : convert (.v040 ⟨v, ifs, ips.map some, rs.map some, d⟩) w = downTo020 w ips rs d := by
        rw [convert_of_find (r := .v040 _) (old_ne_nil _ hw) (old_ne_mid _ hw _ ht).symm (find_040_020 _ ht _ hw)]
        exact convert040To02x_eq ..
      rw [e]
      rcases down w ips rs d with h | ⟨h4, h5⟩
      · exact Or.inl h
      · exact Or.inr ⟨hw, by simpa [HasIP] using h4, h5⟩
    | v100 r =>
      obtain ⟨v, ifs, ips, rs, d⟩ := r
      obtain ⟨h1, h2, h3⟩ := hn
      obtain ⟨ifs, rfl⟩ := exists_map_some h1
      obtain ⟨ips, rfl⟩ := exists_map_some h2
      obtain ⟨rs, rfl⟩ := exists_map_some h3
      have e : convert (.v100 ⟨v, ifs.map some, ips.map some, rs.map some, d⟩) w
          = downTo020 w (ips.map convertIPConfigTo040) rs d := by
        rw [convert_of_find (r := .v100 _) (old_ne_nil _ hw) (old_ne_new _ hw _ ht).symm (find_100_020 _ ht _ hw)]
        simp only [applyConvFlat, convertTo04x_eq]
        rw [← convert040To02x_eq b!"0.4.0" w (ifs.map (fun i => some (convertInterfaceTo040 i)))]
        rw [List.map_map]; rfl
      rw [e]
      rcases down w (ips.map convertIPConfigTo040) rs d with h | ⟨h4, h5⟩
      · exact Or.inl h
      · refine Or.inr ⟨hw, ?_, h5⟩
        rintro ⟨x, hx⟩
        apply h4
        refine ⟨convertIPConfigTo040 x, List.mem_map_of_mem (by simpa using hx), ?_⟩
        simp only [convertIPConfigTo040]
        split
        · exact Or.inl rfl
        · exact Or.inr rfl
  · left
    cases r with
    | v020 r => exact ⟨_, convert_020_040 r ht hw⟩
    | v040 r => exact ⟨_, convert_040_040 r ht hw⟩
    | v100 r =>
      obtain ⟨v, ifs, ips, rs, d⟩ := r
      obtain ⟨h1, h2, h3⟩ := hn
      obtain ⟨ifs, rfl⟩ := exists_map_some h1
      obtain ⟨ips, rfl⟩ := exists_map_some h2
      rw [convert_of_find (r := .v100 _) (mid_ne_nil _ hw) (mid_ne_new _ hw _ ht).symm
        (find_100_040 _ ht _ hw)]
      exact ⟨_, convertTo04x_eq ..⟩
  · left
    cases r with
    | v020 r =>
      rw [convert_of_find (r := .v020 _) (new_ne_nil _ hw) (old_ne_new _ ht _ hw)
        (find_020_100 _ ht _ hw)]
      simp only [applyConvFlat, convert040From02x_eq]
      have h1 : none ∉ (upFrom020 r b!"0.4.0").interfaces := by simp [upFrom020]
      have h2 : none ∉ (upFrom020 r b!"0.4.0").ips := by simp [upFrom020]
      obtain ⟨ifs, e1⟩ := exists_map_some h1
      obtain ⟨ips, e2⟩ := exists_map_some h2
      generalize upFrom020 r b!"0.4.0" = u at *
      obtain ⟨v, uifs, uips, rs, d⟩ := u
      simp only at e1 e2
      subst e1 e2
      exact ⟨_, convertFrom04x_eq ..⟩
    | v040 r =>
      obtain ⟨v, ifs, ips, rs, d⟩ := r
      obtain ⟨h1, h2, h3⟩ := hn
      obtain ⟨ifs, rfl⟩ := exists_map_some h1
      obtain ⟨ips, rfl⟩ := exists_map_some h2
      rw [convert_of_find (r := .v040 _) (new_ne_nil _ hw) (mid_ne_new _ ht _ hw)
        (find_040_100 _ ht _ hw)]
      exact ⟨_, convertFrom04x_eq ..⟩
    | v100 r => exact ⟨_, convert_100_100 r ht hw⟩

/-- C27 on the public method: `GetAsVersion` is the conversion from the version the result reports,
or from the newest version of its Go type when it reports none. -/
theorem c27_getAsVersion (r : Result) (w : Bytes) :
    r.getAsVersion w = if r.version ≠ [] then convert r w else
      match r with
      | .v020 x => convert (.v020 { x with cniVersion := b!"0.2.0" }) w
      | .v040 x => convert (.v040 { x with cniVersion := b!"0.4.0" }) w
      | .v100 x => convert (.v100 { x with cniVersion := b!"1.1.0" }) w := by
  cases r <;> simp only [Result.getAsVersion, Result.version] <;> split <;> simp_all

/-- A dual-stack sample in 1.1.0 with two interfaces. -/
def sample100 : R100 :=
  { cniVersion := b!"1.1.0"
    interfaces := [some { name := b!"eth0", mac := b!"00:11:22:33:44:55", mtu := 1500, sandbox := b!"/ns" },
                   some { name := b!"br0", socketPath := b!"/run/s", pciID := b!"8086:9a01" }]
    ips := [some { interface := some 0, address := ⟨[10,0,0,5], [255,255,255,0]⟩, gateway := [10,0,0,1] },
            some { address := ⟨[0x20,1,0xd,0xb8,0,0,0,0,0,0,0,0,0,0,0,1], List.replicate 8 255 ++ List.replicate 8 0⟩ },
            some { address := ⟨[10,0,0,6], [255,255,255,0]⟩ }]
    routes := [some { dst := ⟨[0,0,0,0], [0,0,0,0]⟩, gw := [10,0,0,1], mtu := 1400, scope := some 0 },
               some { dst := ⟨[0x20,1,0xd,0xb8,0,0,0,0,0,0,0,0,0,0,0,0], List.replicate 8 255 ++ List.replicate 8 0⟩ }]
    dns := { nameservers := [b!"10.0.0.1"], domain := b!"x" } }

example : WellTyped (.v100 sample100) ∧ NoNull (.v100 sample100) := by
  refine ⟨?_, ?_⟩
  · show b!"1.1.0" ∈ new100; decide
  · show none ∉ sample100.interfaces ∧ none ∉ sample100.ips ∧ none ∉ sample100.routes
    decide
example : ∃ r', convert (.v100 sample100) b!"0.2.0" = .ok r' ∧ r'.version = b!"0.2.0" := by
  refine ⟨_, rfl, rfl⟩
example : ∃ e, convert (.v100 sample100) b!"2.0.0" = .err e := ⟨_, rfl⟩
example : ∃ e, convert (.v100 { sample100 with ips := [] }) b!"0.1.0" = .err e := ⟨_, rfl⟩

/-! ### C28 -/

theorem family_fix (x : Ip040) : convertIPConfigTo040 (convertIPConfigFrom040 x)
    = { x with version := if Is4 x.address.ip then b!"4" else b!"6" } := by
  simp only [convertIPConfigTo040, convertIPConfigFrom040, is4_iff]
  rfl

/-- C28, 0.3.x/0.4.0 → 1.x → 0.3.x/0.4.0: interfaces, routes and DNS come back unchanged and so does
every address, except that its declared family is recomputed from the address itself. -/
theorem c28_up_down (r : R040) (hv : r.cniVersion ∈ mid040) (hn : NoNull (.v040 r))
    {w v' : Bytes} (hw : w ∈ new100) (hv' : v' ∈ mid040) :
    ∃ m, convert (.v040 r) w = .ok m ∧ m.version = w ∧ convert m v' = .ok (.v040 { r with
      cniVersion := v'
      ips := r.ips.map fun x => x.map fun x => { x with version := if Is4 x.address.ip then b!"4" else b!"6" } }) := by
  obtain ⟨v, ifs, ips, rs, d⟩ := r
  obtain ⟨h1, h2, h3⟩ := hn
  obtain ⟨ifs, rfl⟩ := exists_map_some h1
  obtain ⟨ips, rfl⟩ := exists_map_some h2
  rw [convert_of_find (r := .v040 _) (new_ne_nil _ hw) (mid_ne_new _ hv _ hw) (find_040_100 _ hv _ hw)]
  refine ⟨_, convertFrom04x_eq .., rfl, ?_⟩
  rw [convert_of_find (r := .v100 ⟨w, _, _, _, _⟩) (mid_ne_nil _ hv') (mid_ne_new _ hv' _ hw).symm (find_100_040 _ hw _ hv')]
  rw [show (ifs.map fun i => some (convertInterfaceFrom040 i)) = (ifs.map convertInterfaceFrom040).map some by simp,
    show (ips.map fun i => some (convertIPConfigFrom040 i)) = (ips.map convertIPConfigFrom040).map some by simp]
  refine (convertTo04x_eq ..).trans ?_
  simp only [List.map_map, Function.comp_def, family_fix, Option.map_some]
  rfl

/-- C28: with families declared correctly the round trip through 1.x is the identity (apart from the
requested version string). -/
theorem c28_up_down_lossless (r : R040) (hv : r.cniVersion ∈ mid040) (hn : NoNull (.v040 r))
    (hf : ∀ x, some x ∈ r.ips → FamilyOk x) {w v' : Bytes} (hw : w ∈ new100) (hv' : v' ∈ mid040) :
    ∃ m, convert (.v040 r) w = .ok m ∧ convert m v' = .ok (.v040 { r with cniVersion := v' }) := by
  obtain ⟨m, h1, _, h2⟩ := c28_up_down r hv hn hw hv'
  refine ⟨m, h1, h2.trans ?_⟩
  have : (r.ips.map fun x => x.map fun x : Ip040 => { x with version := if Is4 x.address.ip then b!"4" else b!"6" })
      = r.ips := by
    conv => rhs; rw [← List.map_id r.ips]
    apply List.map_congr_left
    intro x hx
    cases x with
    | none => rfl
    | some x => simp only [Option.map_some, id, ← show x.version = _ from hf x hx]
  rw [this]

/-- C28, 1.x → 0.3.x/0.4.0 → 1.x: exactly interface MTU, socket path and PCI id are lost. -/
theorem c28_down_up (r : R100) (hv : r.cniVersion ∈ new100) (hn : NoNull (.v100 r))
    {w v' : Bytes} (hw : w ∈ mid040) (hv' : v' ∈ new100) :
    ∃ m, convert (.v100 r) w = .ok m ∧ m.version = w ∧ convert m v' = .ok (.v100 { r with
      cniVersion := v'
      interfaces := r.interfaces.map fun x => x.map fun i => { i with mtu := 0, socketPath := [], pciID := [] } }) := by
  obtain ⟨v, ifs, ips, rs, d⟩ := r
  obtain ⟨h1, h2, h3⟩ := hn
  obtain ⟨ifs, rfl⟩ := exists_map_some h1
  obtain ⟨ips, rfl⟩ := exists_map_some h2
  rw [convert_of_find (r := .v100 _) (mid_ne_nil _ hw) (mid_ne_new _ hw _ hv).symm (find_100_040 _ hv _ hw)]
  refine ⟨_, convertTo04x_eq .., rfl, ?_⟩
  rw [convert_of_find (r := .v040 ⟨w, _, _, _, _⟩) (new_ne_nil _ hv') (mid_ne_new _ hw _ hv') (find_040_100 _ hw _ hv')]
  rw [show (ifs.map fun i => some (convertInterfaceTo040 i)) = (ifs.map convertInterfaceTo040).map some by simp,
    show (ips.map fun i => some (convertIPConfigTo040 i)) = (ips.map convertIPConfigTo040).map some by simp]
  refine (convertFrom04x_eq ..).trans ?_
  simp only [List.map_map, Function.comp_def, Option.map_some]
  rfl

/-- C28 within one format: between 0.3.0, 0.3.1 and 0.4.0, and between 1.0.0 and 1.1.0, only the
version string changes (null entries included). -/
theorem c28_same_format_040 (r : R040) (hv : r.cniVersion ∈ mid040) {w : Bytes} (hw : w ∈ mid040) :
    convert (.v040 r) w = .ok (.v040 { r with cniVersion := w }) := convert_040_040 r hv hw
theorem c28_same_format_100 (r : R100) (hv : r.cniVersion ∈ new100) {w : Bytes} (hw : w ∈ new100) :
    convert (.v100 r) w = .ok (.v100 { r with cniVersion := w }) := convert_100_100 r hv hw

/-- The sample in 0.4.0: meets the hypotheses of the C28 theorems. -/
def sample040 : R040 :=
  { cniVersion := b!"0.4.0"
    interfaces := [some { name := b!"eth0", mac := b!"00:11", sandbox := b!"/ns" }]
    ips := [some { version := b!"4", interface := some 0, address := ⟨[10,0,0,5], [255,255,255,0]⟩, gateway := [10,0,0,1] },
            some { version := b!"6", address := ⟨[0x20,1,0xd,0xb8,0,0,0,0,0,0,0,0,0,0,0,1], List.replicate 8 255 ++ List.replicate 8 0⟩ }]
    routes := [some { dst := ⟨[0,0,0,0], [0,0,0,0]⟩, gw := [10,0,0,1], mtu := 1400 }]
    dns := { domain := b!"x" } }

example : sample040.cniVersion ∈ mid040 ∧ (∀ x, some x ∈ sample040.ips → FamilyOk x) := by
  refine ⟨by decide, ?_⟩
  intro x hx
  simp [sample040] at hx
  rcases hx with rfl | rfl <;> decide
/-- The family hypothesis is needed: a mislabelled address does not survive. -/
theorem c28_family_needed : ∃ r : R040, r.cniVersion ∈ mid040 ∧ NoNull (.v040 r) ∧
    ∀ m, convert (.v040 r) b!"1.0.0" = .ok m → convert m r.cniVersion ≠ .ok (.v040 r) := by
  refine ⟨{ cniVersion := b!"0.4.0", ips := [some { version := b!"6", address := ⟨[1,2,3,4], [255,0,0,0]⟩ }] },
    by decide, ?_, ?_⟩
  · show none ∉ _ ∧ none ∉ _ ∧ none ∉ _
    decide
  · intro m hm
    cases hm
    intro h
    cases h

/-! ### C29 -/

/-- What a 0.1.0/0.2.0 reader needs of a route. -/
def c29Route (rt : Route) : Route := { dst := rt.dst, gw := rt.gw }

/-- The 0.2.0 result that keeps the given addresses; routes are grouped by the family of their
destination, in order. Written without reference to the loops of the code. -/
def c29Keep (w : Bytes) (a4 a6 : Option (IPNet × IP)) (routes : List Route) (d : Dns) : R020 :=
  { cniVersion := w, dns := d
    ip4 := a4.map fun a => { ip := a.1, gateway := a.2, routes := (routes.filter fun rt => Is4 rt.dst.ip).map c29Route }
    ip6 := a6.map fun a => { ip := a.1, gateway := a.2, routes := (routes.filter fun rt => ¬ Is4 rt.dst.ip).map c29Route } }

theorem downTo020_eq (w : Bytes) (ips : List Ip040) (rs : List Route) (d : Dns) :
    downTo020 w ips rs d =
      let a4 := (ips.find? fun x => x.version = b!"4").map fun x => (x.address, x.gateway)
      let a6 := (ips.find? fun x => x.version = b!"6").map fun x => (x.address, x.gateway)
      if a4 = none ∧ a6 = none then .err (.text b!"cannot convert: no valid IP addresses")
      else .ok (.v020 (c29Keep w a4 a6 rs d)) := by
  have e1 : (rs.filter routeIs4).map toRoute020 = (rs.filter fun rt => Is4 rt.dst.ip).map c29Route := by
    congr 1
    apply List.filter_congr
    intro x _
    simp [routeIs4, is4_iff]
  have e2 : (rs.filter fun r => !routeIs4 r).map toRoute020 = (rs.filter fun rt => ¬ Is4 rt.dst.ip).map c29Route := by
    congr 1
    apply List.filter_congr
    intro x _
    cases h : (IP.to4 x.dst.ip).isSome <;> simp [routeIs4, is4_iff, h]
  simp only [downTo020, e1, e2, c29Keep, Option.map_map, Function.comp_def, Option.map_eq_none_iff]

/-- C29 for 0.3.x/0.4.0: the first address declared "4", the first declared "6". -/
theorem c29_from_040 (r : R040) (hv : r.cniVersion ∈ mid040) (hn : NoNull (.v040 r)) {w : Bytes} (hw : w ∈ old020) :
    convert (.v040 r) w =
      let ips := r.ips.filterMap id
      let a4 := (ips.find? fun x => x.version = b!"4").map fun x => (x.address, x.gateway)
      let a6 := (ips.find? fun x => x.version = b!"6").map fun x => (x.address, x.gateway)
      if a4 = none ∧ a6 = none then .err (.text b!"cannot convert: no valid IP addresses")
      else .ok (.v020 (c29Keep w a4 a6 (r.routes.filterMap id) r.dns)) := by
  obtain ⟨v, ifs, ips, rs, d⟩ := r
  obtain ⟨h1, h2, h3⟩ := hn
  obtain ⟨ips, rfl⟩ := exists_map_some h2
  obtain ⟨rs, rfl⟩ := exists_map_some h3
  rw [convert_of_find (r := .v040 _) (old_ne_nil _ hw) (old_ne_mid _ hw _ hv).symm (find_040_020 _ hv _ hw)]
  refine (convert040To02x_eq ..).trans ?_
  rw [downTo020_eq]
  simp [List.filterMap_map]

/-- C29 for 1.x: the first IPv4 and the first IPv6 address. -/
theorem c29_from_100 (r : R100) (hv : r.cniVersion ∈ new100) (hn : NoNull (.v100 r)) {w : Bytes} (hw : w ∈ old020) :
    convert (.v100 r) w =
      let ips := r.ips.filterMap id
      let a4 := (ips.find? fun x => Is4 x.address.ip).map fun x => (x.address, x.gateway)
      let a6 := (ips.find? fun x => ¬ Is4 x.address.ip).map fun x => (x.address, x.gateway)
      if a4 = none ∧ a6 = none then .err (.text b!"cannot convert: no valid IP addresses")
      else .ok (.v020 (c29Keep w a4 a6 (r.routes.filterMap id) r.dns)) := by
  obtain ⟨v, ifs, ips, rs, d⟩ := r
  obtain ⟨h1, h2, h3⟩ := hn
  obtain ⟨ifs, rfl⟩ := exists_map_some h1
  obtain ⟨ips, rfl⟩ := exists_map_some h2
  obtain ⟨rs, rfl⟩ := exists_map_some h3
  rw [convert_of_find (r := .v100 _) (old_ne_nil _ hw) (old_ne_new _ hw _ hv).symm (find_100_020 _ hv _ hw)]
  simp only [applyConvFlat, convertTo04x_eq]
  rw [show (ips.map fun i => some (convertIPConfigTo040 i)) = (ips.map convertIPConfigTo040).map some by simp]
  refine (convert040To02x_eq ..).trans ?_
  rw [downTo020_eq]
  have e4 : (fun x : Ip100 => decide ((convertIPConfigTo040 x).version = b!"4")) = fun x => decide (Is4 x.address.ip) := by
    funext x
    simp only [convertIPConfigTo040, is4_iff]
    split <;> simp_all
  have e6 : (fun x : Ip100 => decide ((convertIPConfigTo040 x).version = b!"6")) = fun x => decide (¬ Is4 x.address.ip) := by
    funext x
    simp only [convertIPConfigTo040, is4_iff]
    split <;> simp_all
  simp only [List.find?_map, Function.comp_def, e4, e6, Option.map_map, List.filterMap_map, id,
    List.filterMap_some]
  rfl

/-- C29: a null-free 1.x result fails to down-convert exactly when it has no address at all. -/
theorem c29_fails_iff (r : R100) (hv : r.cniVersion ∈ new100) (hn : NoNull (.v100 r)) {w : Bytes} (hw : w ∈ old020) :
    (∃ e, convert (.v100 r) w = .err e) ↔ r.ips = [] := by
  rw [c29_from_100 r hv hn hw]
  obtain ⟨ips, e⟩ := exists_map_some hn.2.1
  simp only [e, List.filterMap_map, id, Function.comp_def, List.filterMap_some, Option.map_eq_none_iff]
  constructor
  · rintro ⟨x, hx⟩
    split at hx
    · rename_i hh
      cases ips with
      | nil => rfl
      | cons a l =>
        simp at hh
        exact absurd hh.2.1 hh.1.1
    · cases hx
  · intro h
    simp at h
    subst h
    exact ⟨_, rfl⟩

example : convert (.v100 sample100) b!"0.2.0" = .ok (.v020 {
    cniVersion := b!"0.2.0"
    ip4 := some { ip := ⟨[10,0,0,5], [255,255,255,0]⟩, gateway := [10,0,0,1]
                  routes := [{ dst := ⟨[0,0,0,0], [0,0,0,0]⟩, gw := [10,0,0,1] }] }
    ip6 := some { ip := ⟨[0x20,1,0xd,0xb8,0,0,0,0,0,0,0,0,0,0,0,1], List.replicate 8 255 ++ List.replicate 8 0⟩
                  routes := [{ dst := ⟨[0x20,1,0xd,0xb8,0,0,0,0,0,0,0,0,0,0,0,0], List.replicate 8 255 ++ List.replicate 8 0⟩ }] }
    dns := { nameservers := [b!"10.0.0.1"], domain := b!"x" } }) := by rfl

/-! ### C30 -/

/-- All routes of a 0.2.0 result, IPv4 section first. -/
def allRoutes (r : R020) : List Route :=
  (r.ip4.toList.flatMap fun i => i.routes) ++ (r.ip6.toList.flatMap fun i => i.routes)

/-- What a 0.2.0 result looks like after a round trip: both sections keep address and gateway, the
routes are re-grouped by family and keep destination and gateway. -/
def afterTrip (r : R020) (v : Bytes) : R020 :=
  { r with
    cniVersion := v
    ip4 := r.ip4.map fun i => { i with routes := ((allRoutes r).filter fun rt => Is4 rt.dst.ip).map c29Route }
    ip6 := r.ip6.map fun i => { i with routes := ((allRoutes r).filter fun rt => ¬ Is4 rt.dst.ip).map c29Route } }

theorem upFrom020_noNull (r : R020) (w : Bytes) : NoNull (.v040 (upFrom020 r w)) := by
  refine ⟨?_, ?_, ?_⟩ <;> simp [upFrom020]

theorem upFrom020_routes (r : R020) (w : Bytes) : (upFrom020 r w).routes.filterMap id = allRoutes r := by
  obtain ⟨v, i4, i6, d⟩ := r
  cases i4 <;> cases i6 <;> simp [upFrom020, allRoutes, List.filterMap_map, Function.comp_def]

/-- C30, 0.1.0/0.2.0 → 0.3.x/0.4.0 → 0.1.0/0.2.0: addresses, gateways and DNS always come back. -/
theorem c30_via_040 (r : R020) (hv : r.cniVersion ∈ old020) (hne : r.ip4.isSome ∨ r.ip6.isSome)
    {w v' : Bytes} (hw : w ∈ mid040) (hv' : v' ∈ old020) :
    ∃ m, convert (.v020 r) w = .ok m ∧ m.version = w ∧ convert m v' = .ok (.v020 (afterTrip r v')) := by
  refine ⟨_, convert_020_040 r hv hw, rfl, ?_⟩
  rw [c29_from_040 _ hw (upFrom020_noNull r w) hv', upFrom020_routes]
  simp only [c29Keep, afterTrip]
  generalize allRoutes r = rs
  obtain ⟨v, i4, i6, d⟩ := r
  cases i4 <;> cases i6 <;> simp [upFrom020, c29Keep] at hne ⊢

/-- C30, 0.1.0/0.2.0 → 1.x → 0.1.0/0.2.0: the same when the `ip4` section holds an IPv4 address and
the `ip6` section an IPv6 one. -/
theorem c30_via_100 (r : R020) (hv : r.cniVersion ∈ old020) (hne : r.ip4.isSome ∨ r.ip6.isSome)
    (h4 : ∀ i, r.ip4 = some i → Is4 i.ip.ip) (h6 : ∀ i, r.ip6 = some i → ¬ Is4 i.ip.ip)
    {w v' : Bytes} (hw : w ∈ new100) (hv' : v' ∈ old020) :
    ∃ m, convert (.v020 r) w = .ok m ∧ m.version = w ∧ convert m v' = .ok (.v020 (afterTrip r v')) := by
  rw [convert_of_find (r := .v020 r) (new_ne_nil _ hw) (old_ne_new _ hv _ hw) (find_020_100 _ hv _ hw)]
  simp only [applyConvFlat, convert040From02x_eq]
  have hr := upFrom020_routes r b!"0.4.0"
  obtain ⟨h1, h2, h3⟩ := upFrom020_noNull r b!"0.4.0"
  obtain ⟨ips, e2⟩ := exists_map_some h2
  have e : upFrom020 r b!"0.4.0" = ⟨b!"0.4.0", ([] : List Intf040).map some, ips.map some, (upFrom020 r b!"0.4.0").routes, r.dns⟩ := by
    rw [← e2]; rfl
  rw [e, convertFrom04x_eq]
  refine ⟨_, rfl, rfl, ?_⟩
  rw [c29_from_100 _ hw _ hv']
  · simp only [hr, c29Keep, afterTrip]
    generalize allRoutes r = rs
    have e3 : (ips.map fun i => some (convertIPConfigFrom040 i)).filterMap id = ips.map convertIPConfigFrom040 := by
      simp [List.filterMap_map, Function.comp_def]
    rw [e3]
    clear e e3 h1 h2 h3 hr
    obtain ⟨v, i4, i6, d⟩ := r
    cases i4 <;> cases i6 <;> simp only [upFrom020, Option.toList, List.map_cons, List.map_nil, List.nil_append,
      List.append_nil, List.cons_append] at e2
    · simp at hne
    · rename_i b
      have hb := h6 b rfl
      have e2 := congrArg (List.filterMap id) e2
      simp [List.filterMap_map, Function.comp_def] at e2
      subst e2
      simp [convertIPConfigFrom040, hb]
    · rename_i b
      have hb := h4 b rfl
      have e2 := congrArg (List.filterMap id) e2
      simp [List.filterMap_map, Function.comp_def] at e2
      subst e2
      simp [convertIPConfigFrom040, hb]
    · rename_i a b
      have ha := h4 a rfl
      have hb := h6 b rfl
      have e2 := congrArg (List.filterMap id) e2
      simp [List.filterMap_map, Function.comp_def] at e2
      subst e2
      simp [convertIPConfigFrom040, hb, ha]
  · exact ⟨by simp, by simp, h3⟩

/-- The routes of a section are of family `four` and carry only destination and gateway. -/
def SectionOk (four : Bool) (i : Ip020) : Prop :=
  ∀ rt ∈ i.routes, rt = { dst := rt.dst, gw := rt.gw } ∧ (Is4 rt.dst.ip ↔ four = true)

theorem filter_sec {l : List Route} {q : Route → Bool} {c : Bool}
    (h : ∀ rt ∈ l, c29Route rt = rt ∧ q rt = c) :
    (l.filter q).map c29Route = if c = true then l else [] := by
  induction l with
  | nil => simp
  | cons a l ih =>
    have ha := h a (by simp)
    have hl := ih (fun rt hrt => h rt (by simp [hrt]))
    rw [List.filter_cons, ha.2]
    cases c
    · simpa using hl
    · simpa [ha.1] using hl

/-- C30: when moreover each section holds routes of its own family with only destination and
gateway set, nothing at all is lost. -/
theorem c30_routes_kept (r : R020) (h4 : ∀ i, r.ip4 = some i → SectionOk true i)
    (h6 : ∀ i, r.ip6 = some i → SectionOk false i) (v : Bytes) : afterTrip r v = { r with cniVersion := v } := by
  have p4 : ∀ i b, SectionOk b i → ∀ rt ∈ i.routes, c29Route rt = rt ∧ decide (Is4 rt.dst.ip) = b := by
    intro i b h rt hrt
    have := h rt hrt
    refine ⟨this.1.symm, ?_⟩
    cases b
    · exact decide_eq_false (fun hh => Bool.noConfusion (this.2.mp hh))
    · exact decide_eq_true (this.2.mpr rfl)
  have p6 : ∀ i b, SectionOk b i → ∀ rt ∈ i.routes, c29Route rt = rt ∧ decide (¬ Is4 rt.dst.ip) = !b := by
    intro i b h rt hrt
    have := p4 i b h rt hrt
    refine ⟨this.1, ?_⟩
    rw [← this.2, decide_not]
  obtain ⟨_, i4, i6, d⟩ := r
  simp only [afterTrip, allRoutes]
  cases i4 <;> cases i6
  · rfl
  · rename_i b
    simp only [Option.toList, List.flatMap_nil, List.nil_append, List.flatMap_cons, List.append_nil, Option.map_some,
      Option.map_none, filter_sec (p6 b _ (h6 b rfl))]
    rfl
  · rename_i b
    simp only [Option.toList, List.flatMap_nil, List.nil_append, List.flatMap_cons, List.append_nil, Option.map_some,
      Option.map_none, filter_sec (p4 b _ (h4 b rfl))]
    rfl
  · rename_i a b
    simp only [Option.toList, List.flatMap_nil, List.nil_append, List.flatMap_cons, List.append_nil, Option.map_some,
      Option.map_none, List.filter_append, List.map_append, filter_sec (p4 a _ (h4 a rfl)),
      filter_sec (p6 b _ (h6 b rfl)), filter_sec (p6 a _ (h4 a rfl)), filter_sec (p4 b _ (h6 b rfl))]
    simp

/-- A dual-stack 0.2.0 sample meeting every hypothesis of the C30 theorems. -/
def sample020 : R020 :=
  { cniVersion := b!"0.2.0"
    ip4 := some { ip := ⟨[10,0,0,5], [255,255,255,0]⟩, gateway := [10,0,0,1]
                  routes := [{ dst := ⟨[0,0,0,0], [0,0,0,0]⟩, gw := [10,0,0,1] }, { dst := ⟨[10,1,0,0], [255,255,0,0]⟩ }] }
    ip6 := some { ip := ⟨[0x20,1,0xd,0xb8,0,0,0,0,0,0,0,0,0,0,0,1], List.replicate 8 255 ++ List.replicate 8 0⟩
                  routes := [{ dst := ⟨[0x20,1,0xd,0xb8,0,0,0,0,0,0,0,0,0,0,0,0], List.replicate 8 255 ++ List.replicate 8 0⟩ }] }
    dns := { nameservers := [b!"10.0.0.1"], domain := b!"x" } }

example : sample020.cniVersion ∈ old020 ∧ (∀ i, sample020.ip4 = some i → Is4 i.ip.ip ∧ SectionOk true i)
    ∧ (∀ i, sample020.ip6 = some i → ¬ Is4 i.ip.ip ∧ SectionOk false i) := by
  refine ⟨by decide, ?_, ?_⟩
  · intro i hi
    simp only [sample020, Option.some.injEq] at hi
    subst hi
    refine ⟨by decide, ?_⟩
    intro rt hrt
    simp at hrt
    rcases hrt with rfl | rfl <;> decide
  · intro i hi
    simp only [sample020, Option.some.injEq] at hi
    subst hi
    refine ⟨by decide, ?_⟩
    intro rt hrt
    simp at hrt
    subst hrt
    decide
example : ∃ m, convert (.v020 sample020) b!"1.1.0" = .ok m ∧ convert m b!"0.2.0" = .ok (.v020 sample020) :=
  ⟨_, rfl, rfl⟩
/-- The address hypothesis is needed on the way back: a result without sections cannot return. -/
theorem c30_address_needed : ∃ r : R020, r.cniVersion ∈ old020 ∧
    ∃ m e, convert (.v020 r) b!"0.4.0" = .ok m ∧ convert m b!"0.2.0" = .err e :=
  ⟨{ cniVersion := b!"0.2.0" }, by decide, _, _, rfl, rfl⟩

/-! ### C31 -/

/-- C31: no conversion of a well-typed result without null entries panics, whatever the target. -/
theorem c31_no_panic (r : Result) (ht : WellTyped r) (hn : NoNull r) (w : Bytes) : convert r w ≠ .panic := by
  have key : ∀ w : Bytes, w ≠ [] → convert r w ≠ .panic := by
    intro w hw
    by_cases hs : w ∈ specVersions
    · rcases c27_every_pair r ht hn hs with ⟨r', h⟩ | ⟨_, _, e, h⟩ <;> rw [h] <;> simp
    · by_cases hne : r.version = w
      · rw [← hne, convert_same r (hne ▸ hw)]; simp
      · obtain ⟨e, h⟩ := c27_unknown_target r hw hs hne
        rw [h]; simp
  by_cases hw : w = []
  · subst hw; rw [convert_empty]; exact key _ (by decide)
  · exact key w hw

/-- C31, the counterpart: a null entry in `ips`, `interfaces` or `routes` makes some conversion panic. -/
theorem c31_null_ip_panics (r : R040) (hv : r.cniVersion ∈ mid040) (hnull : none ∈ r.ips) {w : Bytes} (hw : w ∈ new100) :
    convert (.v040 r) w = .panic := by
  rw [convert_of_find (r := .v040 r) (new_ne_nil _ hw) (mid_ne_new _ hv _ hw) (find_040_100 _ hv _ hw)]
  simp only [applyConvFlat, convertFrom04x]
  cases h1 : mapDeref convertInterfaceFrom040 r.interfaces with
  | ok ifs =>
    cases h2 : mapDeref convertIPConfigFrom040 r.ips with
    | ok ips => exact absurd hnull (mapDeref_ok h2).1
    | err e => exact absurd h2 mapDeref_not_err
    | panic => rfl
  | err e => exact absurd h1 mapDeref_not_err
  | panic => rfl

theorem c31_null_interface_panics (r : R040) (hv : r.cniVersion ∈ mid040) (hnull : none ∈ r.interfaces)
    {w : Bytes} (hw : w ∈ new100) : convert (.v040 r) w = .panic := by
  rw [convert_of_find (r := .v040 r) (new_ne_nil _ hw) (mid_ne_new _ hv _ hw) (find_040_100 _ hv _ hw)]
  simp only [applyConvFlat, convertFrom04x]
  cases h1 : mapDeref convertInterfaceFrom040 r.interfaces with
  | ok ifs => exact absurd hnull (mapDeref_ok h1).1
  | err e => exact absurd h1 mapDeref_not_err
  | panic => rfl

/-- A null route panics only on the way down to 0.1.0/0.2.0. -/
theorem c31_null_route_panics (r : R040) (hv : r.cniVersion ∈ mid040) (hips : none ∉ r.ips) (hnull : none ∈ r.routes)
    {w : Bytes} (hw : w ∈ old020) : convert (.v040 r) w = .panic := by
  obtain ⟨v, ifs, ips, rs, d⟩ := r
  obtain ⟨ips, rfl⟩ := exists_map_some hips
  rw [convert_of_find (r := .v040 _) (old_ne_nil _ hw) (old_ne_mid _ hw _ hv).symm (find_040_020 _ hv _ hw)]
  have key : ∀ (l : List (Option Route)) (i4 i6 : Option Ip020), none ∈ l → pickRoutes l i4 i6 = .panic := by
    intro l
    induction l with
    | nil => intro _ _ h; simp at h
    | cons a l ih =>
      intro i4 i6 h
      cases a with
      | none => rfl
      | some a =>
        simp only [List.mem_cons, reduceCtorEq, false_or] at h
        simp only [pickRoutes]
        split
        · exact ih _ _ h
        · split
          · exact ih _ _ h
          · exact ih _ _ h
  simp only [applyConvFlat, convert040To02x,
    pickIPs_some _ _ _ (by simp : ¬ ((none : Option Ip020).isSome ∧ (none : Option Ip020).isSome)), key rs _ _ hnull]

end Verif
