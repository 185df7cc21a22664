/-
What every result read from a document looks like: strings are UTF-8, integers fit in 64 bits,
addresses are absent or in 16-byte form, and networks are absent or as the parser returns them.
Conversions keep that. Proof devices only; no definition here models code.
-/
import Verif.Types.ResultJson
import Verif.Types.ConvertLemmas
import Verif.Types.ResultRoundTrip
import Verif.Json.Clean
import Verif.Spec.ResultJson

namespace Verif
open Verif.Spec

/-! ### the predicate, with the requirement on networks left open -/

/-- Proof device: models no code. -/
def RouteWith (N : IPNet → Prop) (e : Bool) (r : Route) : Prop :=
  N r.dst ∧ AddrOk r.gw ∧ Fits e r.mtu ∧ Fits e r.advmss ∧ Fits e r.priority ∧ OptFits e r.table ∧ OptFits e r.scope
/-- Proof device: models no code. -/
def Ip020With (N : IPNet → Prop) (e : Bool) (i : Ip020) : Prop :=
  N i.ip ∧ AddrOk i.gateway ∧ ∀ r ∈ i.routes, RouteWith N e r
/-- Proof device: models no code. -/
def Ip040With (N : IPNet → Prop) (e : Bool) (i : Ip040) : Prop :=
  TextOk i.version ∧ OptFits e i.interface ∧ N i.address ∧ AddrOk i.gateway
/-- Proof device: models no code. -/
def Ip100With (N : IPNet → Prop) (e : Bool) (i : Ip100) : Prop :=
  OptFits e i.interface ∧ N i.address ∧ AddrOk i.gateway
/-- Proof device: models no code. -/
def ResultWith (N : IPNet → Prop) (e : Bool) : Result → Prop
  | .v020 r => (∀ i, r.ip4 = some i → Ip020With N e i) ∧ (∀ i, r.ip6 = some i → Ip020With N e i) ∧ DnsOk r.dns
  | .v040 r => EachOk Intf040Ok r.interfaces ∧ EachOk (Ip040With N e) r.ips ∧ EachOk (RouteWith N e) r.routes ∧ DnsOk r.dns
  | .v100 r => EachOk (Intf100Ok e) r.interfaces ∧ EachOk (Ip100With N e) r.ips ∧ EachOk (RouteWith N e) r.routes ∧ DnsOk r.dns

theorem representable_iff {e : Bool} {r : Result} : Representable e r ↔ ResultWith IPNet.Canon e r := by
  cases r <;> rfl

/-! ### conversions keep it -/

theorem mapDeref_each {α β : Type} {f : α → β} {P : α → Prop} {Q : β → Prop} (hf : ∀ a, P a → Q (f a)) :
    ∀ {l : List (Option α)} {l' : List (Option β)}, mapDeref f l = .ok l' → EachOk P l → EachOk Q l'
  | [], l', h, _ => by
    simp only [mapDeref, Out.ok.injEq] at h; subst h
    intro x hx; cases hx
  | none :: _, _, h, _ => by simp [mapDeref] at h
  | some a :: l, l', h, hp => by
    simp only [mapDeref] at h
    split at h
    · rename_i l1 h1
      simp only [Out.ok.injEq] at h; subst h
      have ih := mapDeref_each hf h1 (fun x hx => hp x (List.mem_cons_of_mem _ hx))
      intro x hx b hb
      rcases List.mem_cons.1 hx with rfl | hx
      · simp only [Option.some.injEq] at hb; subst hb
        exact hf a (hp _ (List.mem_cons_self ..) a rfl)
      · exact ih x hx b hb
    · cases h
    · cases h

theorem pickIPs_with {N : IPNet → Prop} {e : Bool} : ∀ {l : List (Option Ip040)} {i4 i6 o4 o6 : Option Ip020},
    pickIPs l i4 i6 = .ok (o4, o6) → EachOk (Ip040With N e) l →
    (∀ i, i4 = some i → Ip020With N e i) → (∀ i, i6 = some i → Ip020With N e i) →
    (∀ i, o4 = some i → Ip020With N e i) ∧ (∀ i, o6 = some i → Ip020With N e i)
  | [], i4, i6, o4, o6, h, _, h4, h6 => by
    simp only [pickIPs, Out.ok.injEq, Prod.mk.injEq] at h
    obtain ⟨rfl, rfl⟩ := h
    exact ⟨h4, h6⟩
  | none :: _, _, _, _, _, h, _, _, _ => by simp [pickIPs] at h
  | some x :: l, i4, i6, o4, o6, h, hl, h4, h6 => by
    have hx := hl _ (List.mem_cons_self ..) x rfl
    have hc : Ip020With N e { ip := x.address, gateway := x.gateway } := ⟨hx.2.2.1, hx.2.2.2, by intro r hr; cases hr⟩
    have hl' : EachOk (Ip040With N e) l := fun y hy => hl y (List.mem_cons_of_mem _ hy)
    have key : ∀ p : Option Ip020 × Option Ip020,
        (∀ i, p.1 = some i → Ip020With N e i) → (∀ i, p.2 = some i → Ip020With N e i) →
        (if p.1.isSome ∧ p.2.isSome then Out.ok (p.1, p.2) else pickIPs l p.1 p.2) = .ok (o4, o6) →
        (∀ i, o4 = some i → Ip020With N e i) ∧ (∀ i, o6 = some i → Ip020With N e i) := by
      intro p h1 h2 hh
      split at hh
      · simp only [Out.ok.injEq, Prod.mk.injEq] at hh
        obtain ⟨rfl, rfl⟩ := hh
        exact ⟨h1, h2⟩
      · exact pickIPs_with hh hl' h1 h2
    simp only [pickIPs] at h
    refine key _ ?_ ?_ h
    · intro i hi
      split at hi
      · simp only [Option.some.injEq] at hi; subst hi; exact hc
      · split at hi
        · exact h4 i hi
        · exact h4 i hi
    · intro i hi
      split at hi
      · exact h6 i hi
      · split at hi
        · simp only [Option.some.injEq] at hi; subst hi; exact hc
        · exact h6 i hi

theorem fits_zero (e : Bool) : Fits e 0 := by cases e <;> decide
theorem textOk_nil : TextOk [] := by decide
theorem optFits_none (e : Bool) : OptFits e none := by intro n h; cases h

theorem pickRoutes_with {N : IPNet → Prop} {e : Bool} : ∀ {l : List (Option Route)} {i4 i6 o4 o6 : Option Ip020},
    pickRoutes l i4 i6 = .ok (o4, o6) → EachOk (RouteWith N e) l →
    (∀ i, i4 = some i → Ip020With N e i) → (∀ i, i6 = some i → Ip020With N e i) →
    (∀ i, o4 = some i → Ip020With N e i) ∧ (∀ i, o6 = some i → Ip020With N e i)
  | [], i4, i6, o4, o6, h, _, h4, h6 => by
    simp only [pickRoutes, Out.ok.injEq, Prod.mk.injEq] at h
    obtain ⟨rfl, rfl⟩ := h
    exact ⟨h4, h6⟩
  | none :: _, _, _, _, _, h, _, _, _ => by simp [pickRoutes] at h
  | some x :: l, i4, i6, o4, o6, h, hl, h4, h6 => by
    have hx := hl _ (List.mem_cons_self ..) x rfl
    have hl' : EachOk (RouteWith N e) l := fun y hy => hl y (List.mem_cons_of_mem _ hy)
    have add : ∀ o : Option Ip020, (∀ i, o = some i → Ip020With N e i) →
        ∀ i, (o.map fun y => ({ y with routes := y.routes ++ [({ dst := x.dst, gw := x.gw } : Route)] } : Ip020)) = some i → Ip020With N e i := by
      intro o ho i hi
      cases o with
      | none => cases hi
      | some y =>
        simp only [Option.map_some, Option.some.injEq] at hi
        subst hi
        obtain ⟨a, b, c⟩ := ho y rfl
        refine ⟨a, b, ?_⟩
        intro r hr
        rcases List.mem_append.1 hr with hr | hr
        · exact c r hr
        · simp only [List.mem_singleton] at hr; subst hr
          exact ⟨hx.1, hx.2.1, fits_zero e, fits_zero e, fits_zero e, optFits_none e, optFits_none e⟩
    simp only [pickRoutes] at h
    split at h
    · exact pickRoutes_with h hl' (add _ h4) h6
    · split at h
      · exact pickRoutes_with h hl' h4 (add _ h6)
      · exact pickRoutes_with h hl' h4 h6

theorem convertTo02x_with {N : IPNet → Prop} {e : Bool} {r r' : Result} {v : Bytes} (h : convert040To02x r v = .ok r')
    (hr : ResultWith N e r) : ResultWith N e r' := by
  cases r with
  | v020 => cases h
  | v100 => cases h
  | v040 r =>
    simp only [convert040To02x] at h
    split at h
    · rename_i i4 i6 h1
      split at h
      · rename_i j4 j6 h2
        split at h
        · cases h
        · simp only [Out.ok.injEq] at h; subst h
          have a := pickIPs_with (N := N) (e := e) h1 hr.2.1 (by intro i hi; cases hi) (by intro i hi; cases hi)
          have b := pickRoutes_with h2 hr.2.2.1 a.1 a.2
          exact ⟨b.1, b.2, hr.2.2.2⟩
      · cases h
      · cases h
    · cases h
    · cases h

theorem convertFrom02x_with {N : IPNet → Prop} {e : Bool} {r r' : Result} {v : Bytes} (h : convert040From02x r v = .ok r')
    (hr : ResultWith N e r) : ResultWith N e r' := by
  cases r with
  | v040 => cases h
  | v100 => cases h
  | v020 r =>
    simp only [convert040From02x, Out.ok.injEq] at h
    subst h
    obtain ⟨h4, h6, hd⟩ := hr
    refine ⟨(by intro x hx; cases hx), ?_, ?_, hd⟩
    · intro x hx a ha
      rcases List.mem_append.1 hx with hx | hx
      · cases h : r.ip4 with
        | none => rw [h] at hx; cases hx
        | some i =>
          rw [h] at hx
          simp only [List.mem_singleton] at hx
          subst hx; simp only [Option.some.injEq] at ha; subst ha
          exact ⟨by simp only [convert020IPConfig]; decide, optFits_none e, (h4 i h).1, (h4 i h).2.1⟩
      · cases h : r.ip6 with
        | none => rw [h] at hx; cases hx
        | some i =>
          rw [h] at hx
          simp only [List.mem_singleton] at hx
          subst hx; simp only [Option.some.injEq] at ha; subst ha
          exact ⟨by simp only [convert020IPConfig]; decide, optFits_none e, (h6 i h).1, (h6 i h).2.1⟩
    · intro x hx a ha
      rcases List.mem_append.1 hx with hx | hx
      · cases h : r.ip4 with
        | none => rw [h] at hx; cases hx
        | some i =>
          rw [h] at hx
          obtain ⟨y, hy, rfl⟩ := List.mem_map.1 hx
          simp only [Option.some.injEq] at ha; subst ha
          exact (h4 i h).2.2 y hy
      · cases h : r.ip6 with
        | none => rw [h] at hx; cases hx
        | some i =>
          rw [h] at hx
          obtain ⟨y, hy, rfl⟩ := List.mem_map.1 hx
          simp only [Option.some.injEq] at ha; subst ha
          exact (h6 i h).2.2 y hy

theorem convertFrom04x_with {N : IPNet → Prop} {e : Bool} {r r' : Result} {v : Bytes} (h : convertFrom04x r v = .ok r')
    (hr : ResultWith N e r) : ResultWith N e r' := by
  cases r with
  | v020 => cases h
  | v100 => cases h
  | v040 r =>
    simp only [convertFrom04x] at h
    split at h
    · rename_i ifs h1
      split at h
      · rename_i ips h2
        simp only [Out.ok.injEq] at h; subst h
        simp only [map_routecopy]
        exact ⟨mapDeref_each (fun a ha => ⟨ha.1, ha.2.1, fits_zero e, ha.2.2, textOk_nil, textOk_nil⟩) h1 hr.1,
          mapDeref_each (fun a ha => ⟨ha.2.1, ha.2.2.1, ha.2.2.2⟩) h2 hr.2.1, hr.2.2.1, hr.2.2.2⟩
      · cases h
      · cases h
    · cases h
    · cases h

theorem convertTo04x_with {N : IPNet → Prop} {e : Bool} {r r' : Result} {v : Bytes} (h : convertTo04x r v = .ok r')
    (hr : ResultWith N e r) : ResultWith N e r' := by
  cases r with
  | v020 => cases h
  | v040 => cases h
  | v100 r =>
    simp only [convertTo04x] at h
    split at h
    · rename_i ifs h1
      split at h
      · rename_i ips h2
        simp only [Out.ok.injEq] at h; subst h
        simp only [map_routecopy]
        refine ⟨mapDeref_each (fun a ha => ⟨ha.1, ha.2.1, ha.2.2.2.1⟩) h1 hr.1,
          mapDeref_each (fun a ha => ⟨?_, ha.1, ha.2.1, ha.2.2⟩) h2 hr.2.1, hr.2.2.1, hr.2.2.2⟩
        show isUtf8 _ = true
        simp only [convertIPConfigTo040]
        split <;> decide
      · cases h
      · cases h
    · cases h
    · cases h

theorem applyConv_with {N : IPNet → Prop} {e : Bool} {again : Result → Bytes → Out Result}
    (ha : ∀ r v r', again r v = .ok r' → ResultWith N e r → ResultWith N e r') {c : Conv} {r r' : Result} {v : Bytes}
    (h : applyConv again c r v = .ok r') (hr : ResultWith N e r) : ResultWith N e r' := by
  cases c <;> simp only [applyConv] at h
  · unfold convertFrom010 at h
    split at h
    · cases h
    · cases r with
      | v020 r => simp only [Out.ok.injEq, map_ip020copy] at h; subst h; exact hr
      | v040 => cases h
      | v100 => cases h
  · unfold convertTo010 at h
    split at h
    · cases h
    · cases r with
      | v020 r => simp only [Out.ok.injEq, map_ip020copy] at h; subst h; exact hr
      | v040 => cases h
      | v100 => cases h
  · exact convertFrom02x_with h hr
  · unfold convertInternal at h
    cases r with
    | v020 => cases h
    | v100 => cases h
    | v040 r => simp only [Out.ok.injEq, map_routecopy] at h; subst h; exact hr
  · exact convertTo02x_with h hr
  · split at h
    · rename_i r1 h1; exact convertFrom04x_with h (ha _ _ _ h1 hr)
    · cases h
    · cases h
  · exact convertFrom04x_with h hr
  · unfold convertFrom100 at h
    cases r with
    | v020 => cases h
    | v040 => cases h
    | v100 r => simp only [Out.ok.injEq] at h; subst h; exact hr
  · exact convertTo04x_with h hr
  · split at h
    · rename_i r1 h1; exact ha _ _ _ h (convertTo04x_with h1 hr)
    · cases h
    · cases h

theorem convertN_with {N : IPNet → Prop} {e : Bool} : ∀ (n : Nat) {r r' : Result} {v : Bytes},
    convertN n r v = .ok r' → ResultWith N e r → ResultWith N e r'
  | 0, _, _, _, h, _ => by cases h
  | n + 1, r, r', v, h, hr => by
    simp only [convertN, convertStep] at h
    generalize (if v = [] then b!"0.1.0" else v) = w at h
    split at h
    · simp only [Out.ok.injEq] at h; subst h; exact hr
    · split at h
      · cases h
      · exact applyConv_with (fun _ _ _ h1 h2 => convertN_with n h1 h2) h hr

theorem getAsVersion_with {N : IPNet → Prop} {e : Bool} {r r' : Result} {v : Bytes} (h : r.getAsVersion v = .ok r')
    (hr : ResultWith N e r) : ResultWith N e r' := by
  cases r <;> simp only [Result.getAsVersion] at h <;> refine convertN_with 2 h ?_ <;> split <;> exact hr

/-! ### what the decoders return -/

/-- What the parser of networks returns, or the zero value. Proof device: models no code. -/
def NetRead (n : IPNet) : Prop :=
  n = {} ∨ n.ip.length = 16 ∧
    (((IP.to4 n.ip).isSome ∧ ∃ p, p ≤ 32 ∧ n.mask = cidrMask 4 p) ∨ ∃ p, p ≤ 128 ∧ n.mask = cidrMask 16 p)

theorem parseV6Loop_length : ∀ (n : Nat) {s acc b : Bytes} {ell ell' : Option Nat},
    parseV6Loop n s acc ell = some (b, ell') → acc.length + 2 * n ≤ 16 → b.length ≤ 16
  | 0, s, acc, b, ell, ell', h, hn => by
    simp only [parseV6Loop] at h
    split at h
    · simp only [Option.some.injEq, Prod.mk.injEq] at h; rw [← h.1]; omega
    · cases h
  | n + 1, s, acc, b, ell, ell', h, hn => by
    simp only [parseV6Loop] at h
    split at h
    · cases h
    · split at h
      · simp only [Option.some.injEq, Prod.mk.injEq] at h; rw [← h.1]; simp; omega
      · split at h
        · split at h
          · cases h
          · rename_i hc
            simp only [Option.map_eq_some_iff] at h
            obtain ⟨q, hq, h⟩ := h
            simp only [Prod.mk.injEq] at h
            have := parseV4_length hq
            rw [← h.1, List.length_append]
            have h2 := not_or.1 hc
            omega
        · split at h
          · cases h
          · split at h
            · cases h
            · split at h
              · split at h
                · cases h
                · split at h
                  · simp only [Option.some.injEq, Prod.mk.injEq] at h; rw [← h.1]; simp; omega
                  · exact parseV6Loop_length n h (by simp; omega)
              · exact parseV6Loop_length n h (by simp; omega)

theorem parseV6_length {s b : Bytes} (h : parseV6 s = some b) : b.length = 16 := by
  unfold parseV6 at h
  split at h
  · cases h
  · rename_i c ell hs
    have hc : c.length ≤ 16 := by
      unfold parseV6Start at hs
      split at hs
      · split at hs
        · simp only [Option.some.injEq, Prod.mk.injEq] at hs; rw [← hs.1]; simp
        · exact parseV6Loop_length 8 hs (by simp)
      · exact parseV6Loop_length 8 hs (by simp)
    unfold parseV6Finish at h
    split at h
    · split at h
      · cases h
      · simp only [Option.some.injEq] at h; rw [← h]; simp; omega
    · split at h
      · cases h
      · simp only [Option.some.injEq] at h; rw [← h]; omega

theorem parseAddr_length {s b : Bytes} {n : Nat} (h : parseAddr s = some (b, n)) :
    b.length = 16 ∧ ((n = 32 ∧ (IP.to4 b).isSome) ∨ n = 128) := by
  unfold parseAddr at h
  split at h
  · cases h
  · split at h
    · simp only [Option.map_eq_some_iff, Prod.mk.injEq] at h
      obtain ⟨q, hq, rfl, rfl⟩ := h
      have hl := parseV4_length hq
      obtain ⟨a, b, c, d, rfl⟩ := len4 hl
      exact ⟨by simp [v4InV6Prefix], Or.inl ⟨rfl, by simp [IP.to4, v4InV6Prefix]⟩⟩
    · simp only [Option.map_eq_some_iff, Prod.mk.injEq] at h
      obtain ⟨q, hq, rfl, rfl⟩ := h
      exact ⟨parseV6_length hq, Or.inr rfl⟩
    · cases h

theorem unmarshalText_ok {s : Bytes} {ip : IP} (h : IP.unmarshalText s = some ip) : AddrOk ip := by
  unfold IP.unmarshalText at h
  split at h
  · simp only [Option.some.injEq] at h; exact Or.inl h.symm
  · simp only [parseIP, Option.map_eq_some_iff] at h
    obtain ⟨p, hp, rfl⟩ := h
    exact Or.inr (parseAddr_length (b := p.1) (n := p.2) hp).1

theorem parseCIDR_read {s : Bytes} {n : IPNet} (h : parseCIDR s = some n) : NetRead n := by
  unfold parseCIDR at h
  split at h
  · cases h
  · split at h
    · cases h
    · rename_i b bits hb
      split at h
      · cases h
      · split at h
        · cases h
        · rename_i hlt
          simp only [Option.some.injEq] at h
          subst h
          obtain ⟨hl, h2⟩ := parseAddr_length hb
          refine Or.inr ⟨hl, ?_⟩
          rcases h2 with ⟨rfl, h4⟩ | rfl
          · exact Or.inl ⟨h4, _, by omega, rfl⟩
          · exact Or.inr ⟨_, by omega, rfl⟩

theorem parseInt64_ok {l : Bytes} {n : Int} (h : parseInt64 l = some n) : isInt64 n := by
  unfold parseInt64 at h
  split at h
  rename_i neg ds _
  split at h
  · cases h
  · simp only [] at h
    generalize (if neg = true then -(digitsVal ds : Int) else digitsVal ds) = v at h
    split at h
    · rename_i hv; simp only [Option.some.injEq] at h; rw [← h]; exact hv
    · cases h

theorem decAll_keeps {α : Type} {P : α → Prop} {dec : α → Json → Option α}
    (hs : ∀ a j a', P a → j.WF → dec a j = some a' → P a') :
    ∀ {vals : List Json} {init r : α}, P init → (∀ j ∈ vals, j.WF) → decAll dec init vals = some r → P r
  | [], init, r, h0, _, h => by
    simp only [decAll_nil, Option.some.injEq] at h; subst h; exact h0
  | v :: vs, init, r, h0, hw, h => by
    rw [decAll_cons, Option.bind_eq_some_iff] at h
    obtain ⟨a, ha, h⟩ := h
    exact decAll_keeps hs (hs _ _ _ h0 (hw v (List.mem_cons_self ..)) ha) (fun j hj => hw j (List.mem_cons_of_mem _ hj)) h

theorem wf_field {ms : List (Bytes × Json)} (hw : Json.WFMembers ms) (names : List Bytes) (f : Bytes) :
    ∀ j ∈ getField names f ms, j.WF := by
  intro j hj
  simp only [getField, List.mem_filterMap] at hj
  obtain ⟨m, hm, h⟩ := hj
  split at h
  · simp only [Option.some.injEq] at h; rw [← h]; exact (WFMembers_iff.1 hw m hm).2
  · cases h

theorem wf_struct {j : Json} {ms : List (Bytes × Json)} (h : structMembers j = some ms) (hw : j.WF) : Json.WFMembers ms := by
  cases j <;> simp only [structMembers, Option.some.injEq] at h
  all_goals first | (subst h; trivial) | (subst h; exact hw) | cases h

theorem decStr_valid {c s : Bytes} {j : Json} (hc : TextOk c) (hw : j.WF) (h : decStr c j = some s) : TextOk s := by
  cases j <;> simp only [decStr, Option.some.injEq] at h
  all_goals first | (subst h; exact hc) | (subst h; exact hw) | cases h

theorem decStrElems_text : ∀ {l : List Json} {r : List Bytes}, Json.WFList l → decStrElems l = some r → TextsOk r
  | [], r, _, h => by simp only [decStrElems, Option.some.injEq] at h; subst h; intro s hs; cases hs
  | j :: l, r, hw, h => by
    cases j <;> simp only [decStrElems, Option.map_eq_some_iff] at h
    all_goals first
      | cases h; done
      | skip
    · obtain ⟨l', hl, rfl⟩ := h
      have := decStrElems_text hw.2 hl
      intro s hs
      rcases List.mem_cons.1 hs with rfl | hs
      · exact textOk_nil
      · exact this s hs
    · obtain ⟨l', hl, rfl⟩ := h
      have := decStrElems_text hw.2 hl
      intro s hs
      rcases List.mem_cons.1 hs with rfl | hs
      · exact hw.1
      · exact this s hs

theorem decStrList_text {c r : List Bytes} {j : Json} (hw : j.WF) (h : decStrList c j = some r) : TextsOk r := by
  cases j <;> simp only [decStrList, Option.some.injEq] at h
  all_goals first
    | (subst h; intro s hs; cases hs; done)
    | exact decStrElems_text hw h
    | cases h

theorem decInt_fits {c n : Int} {j : Json} (hc : Fits false c) (h : decInt c j = some n) : Fits false n := by
  cases j <;> simp only [decInt, Option.some.injEq] at h
  all_goals first | (subst h; exact hc) | exact parseInt64_ok h | cases h

theorem decOptInt_fits {c o : Option Int} {j : Json} (h : decOptInt c j = some o) : OptFits false o := by
  cases j <;> simp only [decOptInt, Option.some.injEq, Option.map_eq_some_iff] at h
  all_goals first
    | (subst h; exact optFits_none _)
    | (obtain ⟨n, hn, rfl⟩ := h; intro m hm; simp only [Option.some.injEq] at hm; subst hm; exact parseInt64_ok hn)
    | cases h

theorem decIP_ok {c ip : IP} {j : Json} (h : decIP c j = some ip) : AddrOk ip := by
  cases j <;> simp only [decIP, Option.some.injEq] at h
  all_goals first | exact Or.inl h.symm | exact unmarshalText_ok h | cases h

theorem decIPNet_read {c n : IPNet} {j : Json} (h : decIPNet c j = some n) : NetRead n := by
  cases j <;> simp only [decIPNet] at h
  all_goals first | exact parseCIDR_read h | cases h

theorem textsOk_nil : TextsOk [] := by intro s hs; cases hs

section
variable {ms : List (Bytes × Json)} (hw : Json.WFMembers ms) {names : List Bytes} {f : Bytes}
include hw

theorem field_str {c r : Bytes} (hc : TextOk c) (h : decAll decStr c (getField names f ms) = some r) : TextOk r :=
  decAll_keeps (P := TextOk) (fun _ _ _ a b c => decStr_valid a b c) hc (wf_field hw names f) h
theorem field_strs {c r : List Bytes} (hc : TextsOk c) (h : decAll decStrList c (getField names f ms) = some r) : TextsOk r :=
  decAll_keeps (P := TextsOk) (fun _ _ _ _ b c => decStrList_text b c) hc (wf_field hw names f) h
theorem field_int {r : Int} (h : decAll decInt 0 (getField names f ms) = some r) : Fits false r :=
  decAll_keeps (P := Fits false) (fun _ _ _ a _ c => decInt_fits a c) (fits_zero _) (wf_field hw names f) h
theorem field_optInt {r : Option Int} (h : decAll decOptInt none (getField names f ms) = some r) : OptFits false r :=
  decAll_keeps (P := OptFits false) (fun _ _ _ _ _ c => decOptInt_fits c) (optFits_none _) (wf_field hw names f) h
theorem field_ip {r : IP} (h : decAll decIP [] (getField names f ms) = some r) : AddrOk r :=
  decAll_keeps (P := AddrOk) (fun _ _ _ _ _ c => decIP_ok c) (Or.inl rfl) (wf_field hw names f) h
theorem field_net {r : IPNet} (h : decAll decIPNet {} (getField names f ms) = some r) : NetRead r :=
  decAll_keeps (P := NetRead) (fun _ _ _ _ _ c => decIPNet_read c) (Or.inl rfl) (wf_field hw names f) h

theorem field_list {α : Type} {P : α → Prop} {dec : Json → Option α} (hd : ∀ j a, j.WF → dec j = some a → P a) {r : List α}
    (h : decAll (decList dec) [] (getField names f ms) = some r) : ∀ a ∈ r, P a := by
  refine decAll_keeps (P := fun l => ∀ a ∈ l, P a) ?_ (by intro a ha; cases ha) (wf_field hw names f) h
  intro _ j l _ hj hl
  cases j <;> simp only [decList, Option.some.injEq] at hl
  all_goals first
    | (subst hl; intro a ha; cases ha; done)
    | skip
  all_goals first
    | cases hl; done
    | skip
  rename_i l0
  simp only [Json.WF] at hj
  rw [WFList_iff] at hj
  intro a ha
  clear h
  induction l0 generalizing l with
  | nil =>
    rw [List.mapM_nil] at hl
    simp only [Option.pure_def, Option.some.injEq] at hl
    subst hl; cases ha
  | cons x l0 ih =>
    rw [List.mapM_cons] at hl
    simp only [Option.pure_def, Option.bind_eq_bind, Option.bind_eq_some_iff, Option.some.injEq] at hl
    obtain ⟨b, hb, l1, hl1, rfl⟩ := hl
    rcases List.mem_cons.1 ha with rfl | ha
    · exact hd x _ (hj x (List.mem_cons_self ..)) hb
    · exact ih l1 (fun y hy => hj y (List.mem_cons_of_mem _ hy)) hl1 ha

theorem field_ptrs {α : Type} {P : α → Prop} {dec : Json → Option α} (hd : ∀ j a, j.WF → dec j = some a → P a) {r : List (Option α)}
    (h : decAll (decList (decPtr dec)) [] (getField names f ms) = some r) : EachOk P r := by
  refine field_list hw (P := fun x => ∀ a, x = some a → P a) ?_ h
  intro j x hj hx a ha
  subst ha
  cases j <;> simp only [decPtr, Option.some.injEq, Option.map_eq_some_iff] at hx
  all_goals first
    | cases hx; done
    | skip
  all_goals
    obtain ⟨b, hb, hx⟩ := hx
    rw [← hx]; exact hd _ _ hj hb

theorem field_ptr {α : Type} {P : α → Prop} {dec : Json → Option α} (hd : ∀ j a, j.WF → dec j = some a → P a) {r : Option α}
    (h : decAll (fun _ => decPtr dec) none (getField names f ms) = some r) : ∀ a, r = some a → P a := by
  refine decAll_keeps (P := fun x => ∀ a, x = some a → P a) ?_ (by intro a ha; cases ha) (wf_field hw names f) h
  intro _ j x _ hj hx a ha
  subst ha
  cases j <;> simp only [decPtr, Option.some.injEq, Option.map_eq_some_iff] at hx
  all_goals first
    | cases hx; done
    | skip
  all_goals
    obtain ⟨b, hb, hx⟩ := hx
    rw [← hx]; exact hd _ _ hj hb

end

theorem decDns_read {c d : Dns} {j : Json} (hc : DnsOk c) (hw : j.WF) (h : decDns c j = some d) : DnsOk d := by
  simp only [decDns, Option.bind_eq_bind, Option.bind_eq_some_iff, Option.some.injEq] at h
  obtain ⟨ms, hm, a, ha, b, hb, x, hx, y, hy, rfl⟩ := h
  have hm := wf_struct hm hw
  exact ⟨field_strs hm hc.1 ha, field_str hm hc.2.1 hb, field_strs hm hc.2.2.1 hx, field_strs hm hc.2.2.2 hy⟩

theorem dnsOk_empty : DnsOk {} := ⟨textsOk_nil, textOk_nil, textsOk_nil, textsOk_nil⟩

theorem field_dns {ms : List (Bytes × Json)} (hw : Json.WFMembers ms) {names : List Bytes} {f : Bytes} {d : Dns}
    (h : decAll decDns {} (getField names f ms) = some d) : DnsOk d :=
  decAll_keeps (P := DnsOk) (fun _ _ _ a b c => decDns_read a b c) dnsOk_empty (wf_field hw names f) h

theorem decRoute_read (j : Json) (r : Route) (hw : j.WF) (h : decRoute j = some r) : RouteWith NetRead false r := by
  simp only [decRoute, Option.bind_eq_bind, Option.bind_eq_some_iff, Option.some.injEq] at h
  obtain ⟨ms, hm, a, ha, b, hb, x, hx, y, hy, z, hz, t, ht, s, hs, rfl⟩ := h
  have hm := wf_struct hm hw
  exact ⟨field_net hm ha, field_ip hm hb, field_int hm hx, field_int hm hy, field_int hm hz, field_optInt hm ht, field_optInt hm hs⟩

theorem decIp020_read (j : Json) (r : Ip020) (hw : j.WF) (h : decIp020 j = some r) : Ip020With NetRead false r := by
  simp only [decIp020, Option.bind_eq_bind, Option.bind_eq_some_iff, Option.some.injEq] at h
  obtain ⟨ms, hm, a, ha, b, hb, x, hx, rfl⟩ := h
  have hm := wf_struct hm hw
  exact ⟨field_net hm ha, field_ip hm hb, field_list hm decRoute_read hx⟩

theorem decIntf040_read (j : Json) (r : Intf040) (hw : j.WF) (h : decIntf040 j = some r) : Intf040Ok r := by
  simp only [decIntf040, Option.bind_eq_bind, Option.bind_eq_some_iff, Option.some.injEq] at h
  obtain ⟨ms, hm, a, ha, b, hb, x, hx, rfl⟩ := h
  have hm := wf_struct hm hw
  exact ⟨field_str hm textOk_nil ha, field_str hm textOk_nil hb, field_str hm textOk_nil hx⟩

theorem decIp040_read (j : Json) (r : Ip040) (hw : j.WF) (h : decIp040 j = some r) : Ip040With NetRead false r := by
  simp only [decIp040, Option.bind_eq_bind, Option.bind_eq_some_iff, Option.some.injEq] at h
  obtain ⟨ms, hm, a, ha, b, hb, x, hx, y, hy, rfl⟩ := h
  have hm := wf_struct hm hw
  exact ⟨field_str hm textOk_nil ha, field_optInt hm hb, field_net hm hx, field_ip hm hy⟩

theorem decIntf100_read (j : Json) (r : Intf100) (hw : j.WF) (h : decIntf100 j = some r) : Intf100Ok false r := by
  simp only [decIntf100, Option.bind_eq_bind, Option.bind_eq_some_iff, Option.some.injEq] at h
  obtain ⟨ms, hm, a, ha, b, hb, x, hx, y, hy, z, hz, t, ht, rfl⟩ := h
  have hm := wf_struct hm hw
  exact ⟨field_str hm textOk_nil ha, field_str hm textOk_nil hb, field_int hm hx, field_str hm textOk_nil hy,
    field_str hm textOk_nil hz, field_str hm textOk_nil ht⟩

theorem decIp100_read (j : Json) (r : Ip100) (hw : j.WF) (h : decIp100 j = some r) : Ip100With NetRead false r := by
  simp only [decIp100, Option.bind_eq_bind, Option.bind_eq_some_iff, Option.some.injEq] at h
  obtain ⟨ms, hm, a, ha, b, hb, x, hx, rfl⟩ := h
  have hm := wf_struct hm hw
  exact ⟨field_optInt hm ha, field_net hm hb, field_ip hm hx⟩

theorem decR020_read {j : Json} {r : R020} (hw : j.WF) (h : decR020 j = some r) :
    ResultWith NetRead false (.v020 r) ∧ TextOk r.cniVersion := by
  simp only [decR020, Option.bind_eq_bind, Option.bind_eq_some_iff, Option.some.injEq] at h
  obtain ⟨ms, hm, a, ha, b, hb, x, hx, y, hy, rfl⟩ := h
  have hm := wf_struct hm hw
  exact ⟨⟨field_ptr hm decIp020_read hb, field_ptr hm decIp020_read hx, field_dns hm hy⟩, field_str hm textOk_nil ha⟩

theorem decR040_read {j : Json} {r : R040} (hw : j.WF) (h : decR040 j = some r) :
    ResultWith NetRead false (.v040 r) ∧ TextOk r.cniVersion := by
  simp only [decR040, Option.bind_eq_bind, Option.bind_eq_some_iff, Option.some.injEq] at h
  obtain ⟨ms, hm, a, ha, b, hb, x, hx, y, hy, z, hz, rfl⟩ := h
  have hm := wf_struct hm hw
  exact ⟨⟨field_ptrs hm decIntf040_read hb, field_ptrs hm decIp040_read hx, field_ptrs hm decRoute_read hy, field_dns hm hz⟩,
    field_str hm textOk_nil ha⟩

theorem decR100_read {j : Json} {r : R100} (hw : j.WF) (h : decR100 j = some r) :
    ResultWith NetRead false (.v100 r) ∧ TextOk r.cniVersion := by
  simp only [decR100, Option.bind_eq_bind, Option.bind_eq_some_iff, Option.some.injEq] at h
  obtain ⟨ms, hm, a, ha, b, hb, x, hx, y, hy, z, hz, rfl⟩ := h
  have hm := wf_struct hm hw
  exact ⟨⟨field_ptrs hm decIntf100_read hb, field_ptrs hm decIp100_read hx, field_ptrs hm decRoute_read hy, field_dns hm hz⟩,
    field_str hm textOk_nil ha⟩

theorem createJson_read {v : Bytes} {j : Json} {r : Result} (hw : j.WF) (h : createJson v j = .ok r) :
    ResultWith NetRead false r := by
  unfold createJson at h
  split at h
  · split at h
    · cases h
    · rename_i x hx
      split at h
      · simp only [Out.ok.injEq] at h; subst h
        have := (decR020_read hw hx).1
        split <;> exact this
      · cases h
  · split at h
    · split at h
      · cases h
      · rename_i x hx
        split at h
        · simp only [Out.ok.injEq] at h; subst h; exact (decR040_read hw hx).1
        · cases h
    · split at h
      · split at h
        · cases h
        · rename_i x hx
          split at h
          · simp only [Out.ok.injEq] at h; subst h; exact (decR100_read hw hx).1
          · cases h
      · cases h

theorem create_read {v b : Bytes} {r : Result} (h : create v b = .ok r) : ResultWith NetRead false r := by
  unfold create at h
  split at h
  · cases h
  · rename_i j hj; exact createJson_read (Json.parse_WF hj) h


/-! ### what was read can be marshalled -/

/-- The document can be decoded into `interface{}`: no number overflows. Proof device: models no code. -/
def Json.Decodes (j : Json) : Prop := ∃ j', j.toAny = some j'

theorem decodes_null : Json.null.Decodes := ⟨_, rfl⟩
theorem decodes_str (s : Bytes) : (Json.str s).Decodes := ⟨_, rfl⟩

theorem toAnyList_decodes : ∀ {l : List Json}, (∀ j ∈ l, j.Decodes) → ∃ l', Json.toAnyList l = some l'
  | [], _ => ⟨_, rfl⟩
  | j :: l, h => by
    obtain ⟨j', hj⟩ := h j (List.mem_cons_self ..)
    obtain ⟨l', hl⟩ := toAnyList_decodes (l := l) fun x hx => h x (List.mem_cons_of_mem _ hx)
    exact ⟨j' :: l', by simp only [Json.toAnyList, hj, hl]⟩

theorem toAnyMembers_decodes : ∀ {l : List (Bytes × Json)}, (∀ m ∈ l, m.2.Decodes) → ∃ l', Json.toAnyMembers l = some l'
  | [], _ => ⟨_, rfl⟩
  | (k, j) :: l, h => by
    obtain ⟨j', hj⟩ := h (k, j) (List.mem_cons_self ..)
    obtain ⟨l', hl⟩ := toAnyMembers_decodes (l := l) fun x hx => h x (List.mem_cons_of_mem _ hx)
    exact ⟨(k, j') :: l', by simp only [Json.toAnyMembers, hj, hl]⟩

theorem toAnyMembers_decodes_inv {l l' : List (Bytes × Json)} (h : Json.toAnyMembers l = some l') : ∀ m ∈ l, m.2.Decodes := by
  intro m hm
  obtain ⟨hl, hh⟩ := toAnyMembers_iff.1 h
  obtain ⟨i, hi, e⟩ := List.getElem_of_mem hm
  have := hh i hi (by omega)
  exact ⟨_, by rw [← e]; exact this.2⟩

theorem decodes_obj {ms : List (Bytes × Json)} (h : ∀ m ∈ ms, m.2.Decodes) : (Json.obj ms).Decodes := by
  obtain ⟨l, hl⟩ := toAnyMembers_decodes h
  exact ⟨.obj (GoMap.ofList l), by simp only [Json.toAny, hl, Option.map_some]⟩

theorem decodes_arr {l : List Json} (h : ∀ j ∈ l, j.Decodes) : (Json.arr l).Decodes := by
  obtain ⟨l', hl⟩ := toAnyList_decodes h
  exact ⟨.arr l', by simp only [Json.toAny, hl, Option.map_some]⟩

set_option exponentiation.threshold 3000 in
theorem roundRat_small (neg : Bool) {x : Nat} (h : x < 2 ^ 64) : ∃ f, roundRat neg x 1 = some f := by
  have hk : Nat.log2 (x * 2 ^ 1074 / 1) ≤ 1138 := by
    rw [Nat.div_one]
    by_cases h0 : x * 2 ^ 1074 = 0
    · rw [h0]; decide
    · have hl := log2_lower h0
      apply Nat.le_of_lt_succ
      apply Decidable.byContradiction
      intro hh
      have h1 : 2 ^ 1139 ≤ 2 ^ Nat.log2 (x * 2 ^ 1074) := Nat.pow_le_pow_right (by decide) (by omega)
      have h2 : x * 2 ^ 1074 < 2 ^ 64 * 2 ^ 1074 := Nat.mul_lt_mul_of_pos_right h (Nat.two_pow_pos _)
      rw [← Nat.pow_add] at h2
      have h3 : (2 : Nat) ^ (64 + 1074) ≤ 2 ^ 1139 := Nat.pow_le_pow_right (by decide) (by omega)
      exact absurd (Nat.lt_of_lt_of_le h2 h3) (Nat.not_lt.2 (Nat.le_trans h1 hl))
  unfold roundRat
  simp only []
  generalize Nat.log2 (x * 2 ^ 1074 / 1) = k at hk
  split
  · rw [if_pos (by simp only []; omega)]; exact ⟨_, rfl⟩
  · rw [if_pos (by simp only []; omega)]; exact ⟨_, rfl⟩

theorem decodes_int {n : Int} (h : isInt64 n) : (jInt n).Decodes := by
  have hs := scanNum_int (decide (n < 0)) n.natAbs [] rfl (by simp)
  simp only [List.append_nil, decide_eq_true_eq] at hs
  obtain ⟨f, hf⟩ := roundRat_small (decide (n < 0)) (x := n.natAbs) (by
    have : n.natAbs ≤ 9223372036854775808 := by unfold isInt64 at h; omega
    exact Nat.lt_of_le_of_lt this (by decide))
  refine ⟨.num f.fmt, ?_⟩
  simp only [jInt, Json.toAny, normNum, parseF64, itoa_eq, hs, NumParts.toF64, expVal]
  simp only [List.append_nil, digitsVal_natDigits, List.length_nil]
  show Option.map Json.num (Option.map F64.fmt (roundRat (decide (n < 0)) (n.natAbs * 10 ^ 0) 1)) = _
  rw [Nat.pow_zero, Nat.mul_one, hf]; rfl

mutual
theorem Json.clean_decodes (j j' : Json) (h : j.toAny = some j') : j.clean.Decodes := by
  cases j with
  | null => exact ⟨_, rfl⟩
  | bool b => exact ⟨_, rfl⟩
  | str s => exact ⟨_, rfl⟩
  | num l => exact ⟨_, h⟩
  | arr l =>
    simp only [Json.toAny, Option.map_eq_some_iff] at h
    obtain ⟨l', hl, -⟩ := h
    exact decodes_arr (Json.cleanList_decodes l l' hl)
  | obj ms =>
    simp only [Json.toAny, Option.map_eq_some_iff] at h
    obtain ⟨l', hl, -⟩ := h
    exact decodes_obj (Json.cleanMembers_decodes ms l' hl)
theorem Json.cleanList_decodes (l l' : List Json) (h : Json.toAnyList l = some l') : ∀ j ∈ Json.cleanList l, j.Decodes := by
  cases l with
  | nil => intro j hj; cases hj
  | cons j l =>
    simp only [Json.toAnyList] at h
    split at h
    · rename_i j1 l1 hj hl
      have h1 := Json.clean_decodes j j1 hj
      have h2 := Json.cleanList_decodes l l1 hl
      intro x hx
      rcases List.mem_cons.1 hx with rfl | hx
      · exact h1
      · exact h2 x hx
    · cases h
theorem Json.cleanMembers_decodes (l l' : List (Bytes × Json)) (h : Json.toAnyMembers l = some l') :
    ∀ m ∈ Json.cleanMembers l, m.2.Decodes := by
  cases l with
  | nil => intro j hj; cases hj
  | cons m l =>
    obtain ⟨k, j⟩ := m
    simp only [Json.toAnyMembers] at h
    split at h
    · rename_i j1 l1 hj hl
      have h1 := Json.clean_decodes j j1 hj
      have h2 := Json.cleanMembers_decodes l l1 hl
      intro x hx
      rcases List.mem_cons.1 hx with rfl | hx
      · exact h1
      · exact h2 x hx
    · cases h
end

/-- Proof device: models no code. -/
def DecodesMembers (ms : List (Bytes × Json)) : Prop := ∀ m ∈ ms, m.2.Decodes

theorem dm_append {a b : List (Bytes × Json)} (ha : DecodesMembers a) (hb : DecodesMembers b) : DecodesMembers (a ++ b) := by
  intro m hm
  exact (List.mem_append.1 hm).elim (ha m) (hb m)
theorem dm_jopt {c : Bool} {k : Bytes} {v : Json} (h : c = true → v.Decodes) : DecodesMembers (jopt c k v) := by
  intro m hm
  cases c
  · cases hm
  · simp only [jopt, if_true, List.mem_singleton] at hm; subst hm; exact h rfl
theorem dm_one {k : Bytes} {v : Json} (h : v.Decodes) : DecodesMembers [(k, v)] := by
  intro m hm; simp only [List.mem_singleton] at hm; subst hm; exact h
theorem decodes_map {α : Type} {f : α → Json} {l : List α} (h : ∀ a ∈ l, (f a).Decodes) : (Json.arr (l.map f)).Decodes := by
  refine decodes_arr ?_
  intro j hj
  obtain ⟨a, ha, rfl⟩ := List.mem_map.1 hj
  exact h a ha
theorem decodes_ptr {α : Type} {f : α → Json} {o : Option α} (h : ∀ a, o = some a → (f a).Decodes) : (jPtr f o).Decodes := by
  cases o
  · exact decodes_null
  · exact h _ rfl
theorem decodes_strs (l : List Bytes) : (jStrList l).Decodes := decodes_map fun _ _ => decodes_str _
theorem decodes_optInt {o : Option Int} (h : OptFits false o) : (jPtr jInt o).Decodes := decodes_ptr fun n hn => decodes_int (h n hn)
theorem decodes_each {α : Type} {f : α → Json} {P : α → Prop} {l : List (Option α)} (hl : EachOk P l) (h : ∀ a, P a → (f a).Decodes) :
    (Json.arr (l.map (jPtr f))).Decodes := decodes_map fun x hx => decodes_ptr fun a ha => h a (hl x hx a ha)

theorem decodes_dns (d : Dns) : (jDns d).Decodes := by
  refine decodes_obj (?_ : DecodesMembers _)
  unfold Dns.members
  exact dm_append (dm_append (dm_append (dm_jopt fun _ => decodes_strs _) (dm_jopt fun _ => decodes_str _)) (dm_jopt fun _ => decodes_strs _))
    (dm_jopt fun _ => decodes_strs _)

theorem decodes_route {N : IPNet → Prop} {r : Route} (h : RouteWith N false r) : (jRoute r).Decodes := by
  obtain ⟨-, -, h1, h2, h3, h4, h5⟩ := h
  refine decodes_obj (?_ : DecodesMembers _)
  unfold Route.members
  refine dm_append (dm_append (dm_append (dm_append (dm_append (dm_append (dm_one ?_) (dm_jopt ?_)) (dm_jopt ?_)) (dm_jopt ?_)) (dm_jopt ?_)) (dm_jopt ?_)) (dm_jopt ?_)
  · exact decodes_str _
  · exact fun _ => decodes_str _
  · exact fun _ => decodes_int h1
  · exact fun _ => decodes_int h2
  · exact fun _ => decodes_int h3
  · exact fun _ => decodes_optInt h4
  · exact fun _ => decodes_optInt h5

theorem decodes_ip020 {N : IPNet → Prop} {r : Ip020} (h : Ip020With N false r) : (jIp020 r).Decodes := by
  refine decodes_obj (?_ : DecodesMembers _)
  unfold Ip020.members
  exact dm_append (dm_append (dm_one (decodes_str _)) (dm_jopt fun _ => decodes_str _))
    (dm_jopt fun _ => decodes_map fun x hx => decodes_route (h.2.2 x hx))

theorem decodes_intf040 (r : Intf040) : (jIntf040 r).Decodes := by
  refine decodes_obj (?_ : DecodesMembers _)
  unfold Intf040.members
  exact dm_append (dm_append (dm_one (decodes_str _)) (dm_jopt fun _ => decodes_str _)) (dm_jopt fun _ => decodes_str _)

theorem decodes_ip040 {N : IPNet → Prop} {r : Ip040} (h : Ip040With N false r) : (jIp040 r).Decodes := by
  refine decodes_obj (?_ : DecodesMembers _)
  unfold Ip040.members
  exact dm_append (dm_append (dm_append (dm_one (decodes_str _)) (dm_jopt fun _ => decodes_optInt h.2.1)) (dm_one (decodes_str _)))
    (dm_jopt fun _ => decodes_str _)

theorem decodes_intf100 {r : Intf100} (h : Intf100Ok false r) : (jIntf100 r).Decodes := by
  refine decodes_obj (?_ : DecodesMembers _)
  unfold Intf100.members
  exact dm_append (dm_append (dm_append (dm_append (dm_append (dm_one (decodes_str _)) (dm_jopt fun _ => decodes_str _))
    (dm_jopt fun _ => decodes_int h.2.2.1)) (dm_jopt fun _ => decodes_str _)) (dm_jopt fun _ => decodes_str _)) (dm_jopt fun _ => decodes_str _)

theorem decodes_ip100 {N : IPNet → Prop} {r : Ip100} (h : Ip100With N false r) : (jIp100 r).Decodes := by
  refine decodes_obj (?_ : DecodesMembers _)
  unfold Ip100.members
  exact dm_append (dm_append (dm_jopt fun _ => decodes_optInt h.1) (dm_one (decodes_str _))) (dm_jopt fun _ => decodes_str _)

theorem ResultWith.ipsOk {N : IPNet → Prop} {e : Bool} {r : Result} (h : ResultWith N e r) : r.ipsOk = true := by
  cases r with
  | v020 r =>
    have key : ∀ o : Option Ip020, (∀ i, o = some i → Ip020With N e i) → o.all Ip020.ipsOk = true := by
      intro o ho
      cases o with
      | none => rfl
      | some i =>
        obtain ⟨-, h2, h3⟩ := ho i rfl
        simp only [Option.all_some, Ip020.ipsOk, Bool.and_eq_true, List.all_eq_true]
        exact ⟨ipOk_of h2, fun x hx => ipOk_of (h3 x hx).2.1⟩
    simp only [Result.ipsOk, Bool.and_eq_true]
    exact ⟨key _ h.1, key _ h.2.1⟩
  | v040 r =>
    simp only [Result.ipsOk, Bool.and_eq_true, List.all_eq_true]
    refine ⟨fun x hx => ?_, fun x hx => ?_⟩
    · cases x with
      | none => rfl
      | some i => exact ipOk_of (h.2.1 _ hx i rfl).2.2.2
    · cases x with
      | none => rfl
      | some i => exact ipOk_of (h.2.2.1 _ hx i rfl).2.1
  | v100 r =>
    simp only [Result.ipsOk, Bool.and_eq_true, List.all_eq_true]
    refine ⟨fun x hx => ?_, fun x hx => ?_⟩
    · cases x with
      | none => rfl
      | some i => exact ipOk_of (h.2.1 _ hx i rfl).2.2
    · cases x with
      | none => rfl
      | some i => exact ipOk_of (h.2.2.1 _ hx i rfl).2.1

/-- A result that was read can be marshalled, to an object, and that can be decoded again. -/
theorem ResultWith.json {N : IPNet → Prop} {r : Result} (h : ResultWith N false r) :
    ∃ ms, r.json = some (.obj ms) ∧ DecodesMembers ms := by
  have hip := h.ipsOk
  simp only [Result.json, hip, if_true]
  cases r with
  | v020 r =>
    refine ⟨_, rfl, ?_⟩
    unfold R020.members
    exact dm_append (dm_append (dm_append (dm_jopt fun _ => decodes_str _) (dm_jopt fun _ => decodes_ptr fun i hi => decodes_ip020 (h.1 i hi)))
      (dm_jopt fun _ => decodes_ptr fun i hi => decodes_ip020 (h.2.1 i hi))) (dm_one (decodes_dns _))
  | v040 r =>
    refine ⟨_, rfl, ?_⟩
    unfold R040.members
    exact dm_append (dm_append (dm_append (dm_append (dm_jopt fun _ => decodes_str _)
      (dm_jopt fun _ => decodes_map fun _ _ => decodes_ptr fun _ _ => decodes_intf040 _))
      (dm_jopt fun _ => decodes_each h.2.1 fun _ => decodes_ip040)) (dm_jopt fun _ => decodes_each h.2.2.1 fun _ => decodes_route))
      (dm_one (decodes_dns _))
  | v100 r =>
    have hm : DecodesMembers r.members := by
      unfold R100.members
      exact dm_append (dm_append (dm_append (dm_append (dm_jopt fun _ => decodes_str _)
        (dm_jopt fun _ => decodes_each h.1 fun _ => decodes_intf100))
        (dm_jopt fun _ => decodes_each h.2.1 fun _ => decodes_ip100)) (dm_jopt fun _ => decodes_each h.2.2.1 fun _ => decodes_route))
        (dm_one (decodes_dns _))
    obtain ⟨l, hl⟩ := toAnyMembers_decodes hm
    have hn := Json.toAnyMembers_idem _ _ hl
    have ho : DecodesMembers (GoMap.ofList l) := fun m hm => ⟨_, hn m (ofList_mem m hm)⟩
    simp only [R100.json, Json.toAny, hl, Option.map_some]
    refine ⟨_, rfl, ?_⟩
    split
    · intro m hm
      exact ho m (List.mem_filter.1 hm).1
    · exact ho

end Verif
