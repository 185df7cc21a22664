/- C33: how a plugin's output is interpreted. C34: how a plugin reads prevResult. -/
import Verif.Props.ResultJson

namespace Verif
open Spec
set_option linter.unusedSimpArgs false

/-! ### repeated keys -/

theorem lastMember_iff {α : Type} {ms : List (Bytes × α)} {k : Bytes} {v : α} :
    LastMember ms k v ↔ GoMap.get? ms.reverse k = some v := by
  suffices hh : ∀ l : List (Bytes × α), LastMember l.reverse k v ↔ GoMap.get? l k = some v by
    have := hh ms.reverse; rwa [List.reverse_reverse] at this
  intro l
  induction l with
  | nil =>
    simp only [List.reverse_nil, GoMap.get?, reduceCtorEq, iff_false]
    rintro ⟨a, b, h, _⟩; simp at h
  | cons m l0 ih =>
    obtain ⟨k', v'⟩ := m
    simp only [List.reverse_cons, GoMap.get?]
    generalize l0.reverse = l at *
    by_cases h : k' = k
    · subst h
      simp only [if_true, Option.some.injEq]
      constructor
      · rintro ⟨a, b, e, hb⟩
        rcases List.eq_nil_or_concat b with rfl | ⟨b', m, rfl⟩
        · have := List.append_inj_right' e rfl
          simp at this; exact this
        · rw [List.concat_eq_append, ← List.cons_append, ← List.append_assoc] at e
          have := List.append_inj_right' e rfl
          simp at this
          exact absurd (by rw [← this]) (hb m (by simp))
      · rintro rfl
        exact ⟨l, [], rfl, by simp⟩
    · simp only [h, if_false]
      rw [← ih]
      constructor
      · rintro ⟨a, b, e, hb⟩
        rcases List.eq_nil_or_concat b with rfl | ⟨b', m, rfl⟩
        · have := List.append_inj_right' e rfl
          simp at this; exact absurd this.1 h
        · rw [List.concat_eq_append, ← List.cons_append, ← List.append_assoc] at e
          have := List.append_inj_left' e rfl
          exact ⟨a, b', this, fun m hm => hb m (by simp [hm])⟩
      · rintro ⟨a, b, e, hb⟩
        refine ⟨a, b ++ [(k', v')], by simp [e], ?_⟩
        intro m hm
        simp only [List.mem_append, List.mem_singleton] at hm
        rcases hm with hm | rfl
        · exact hb m hm
        · exact h

theorem noMember_iff {α : Type} {ms : List (Bytes × α)} {k : Bytes} : NoMember ms k ↔ GoMap.get? ms.reverse k = none := by
  rw [GoMap.get?_none_iff]
  simp only [NoMember, List.map_reverse, List.mem_reverse, List.mem_map, not_exists, not_and]

theorem toAnyMembers_get? {l l' : List (Bytes × Json)} (h : Json.toAnyMembers l = some l') (k : Bytes) :
    GoMap.get? (GoMap.ofList l') k = (GoMap.get? l.reverse k).bind Json.toAny := by
  have key : ∀ {l l' : List (Bytes × Json)}, Json.toAnyMembers l = some l' → ∀ m, GoMap.get? (GoMap.insertAll m l') k
      = match GoMap.get? l.reverse k with | some v => v.toAny | none => GoMap.get? m k := by
    intro l
    induction l with
    | nil => intro l' h m; simp [Json.toAnyMembers] at h; subst h; simp [GoMap.insertAll, GoMap.get?]
    | cons p l ih =>
      obtain ⟨k', v⟩ := p
      intro l' h m
      simp only [Json.toAnyMembers] at h
      split at h
      · rename_i j' l'' hj hl
        simp only [Option.some.injEq] at h; subst h
        have e : GoMap.insertAll m ((k', j') :: l'') = GoMap.insertAll (GoMap.insert m k' j') l'' := rfl
        rw [e, ih hl]
        simp only [List.reverse_cons, GoMap.get?_append]
        cases GoMap.get? l.reverse k with
        | some v => rfl
        | none =>
          simp only [Option.none_or, GoMap.get?, GoMap.get?_insert]
          by_cases h : k' = k <;> simp [h, hj]
      · cases h
  have := key h []
  show GoMap.get? (GoMap.insertAll [] l') k = _
  rw [this]
  cases GoMap.get? l.reverse k <;> simp [GoMap.get?]

/-! ### C33 -/

/-- The object a plugin printed: `null` counts as an empty object. -/
def IsOutputObject (out : Bytes) (ms : List (Bytes × Json)) : Prop :=
  Json.parse out = some (.obj ms) ∨ (Json.parse out = some .null ∧ ms = [])

/-- The document names a version: its `cniVersion` (the last one, if repeated) is a non-empty string. -/
def NamesVersion (ms : List (Bytes × Json)) (v : Bytes) : Prop :=
  LastMember ms b!"cniVersion" (.str v) ∧ v ≠ []

theorem fixup_raw {out : Bytes} {ms : List (Bytes × Json)} (ho : IsOutputObject out ms) {m : List (Bytes × Json)}
    (hm : Json.toAnyMembers ms = some m) {netconf cv : Bytes} (hc : decodeVersion netconf = .ok cv) :
    fixupResultVersion netconf out = match GoMap.get? (GoMap.ofList m) b!"cniVersion" with
      | some (.str v) =>
        if v ≠ [] then .ok (v, out)
        else .ok (cv, (Json.obj (GoMap.insert (GoMap.ofList m) b!"cniVersion" (.str cv))).print)
      | _ => .ok (cv, (Json.obj (GoMap.insert (GoMap.ofList m) b!"cniVersion" (.str cv))).print) := by
  rcases ho with ho | ⟨ho, rfl⟩
  · simp [fixupResultVersion, hc, ho, Json.toAny, hm]
    rfl
  · simp [Json.toAnyMembers] at hm; subst hm
    simp [fixupResultVersion, hc, ho, GoMap.ofList]
    rfl

/-- C33, output that names a version: it is used byte for byte, in that version. -/
theorem c33_named (netconf out v cv : Bytes) (ms m : List (Bytes × Json)) (ho : IsOutputObject out ms)
    (hm : Json.toAnyMembers ms = some m) (hc : decodeVersion netconf = .ok cv) (hv : NamesVersion ms v) :
    fixupResultVersion netconf out = .ok (v, out) := by
  rw [fixup_raw ho hm hc, toAnyMembers_get? hm, lastMember_iff.mp hv.1]
  simp [Json.toAny, hv.2]

theorem decodeVersion_utf8 {b v : Bytes} (h : decodeVersion b = .ok v) : isUtf8 v = true := by
  unfold decodeVersion at h
  split at h
  · cases h
  · rename_i j hj
    split at h
    · cases h
    · rename_i ms hms
      split at h
      · cases h
      · rename_i w hw
        simp only [Out.ok.injEq] at h
        have hwf : ∀ x ∈ getField [b!"cniVersion"] b!"cniVersion" ms, x.WF := by
          intro x hx
          have : (Json.obj ms).WF := by
            have := Json.parse_WF hj
            cases j <;> simp [structMembers] at hms
            · subst hms; simp [Json.WF, Json.WFMembers]
            · subst hms; exact this
          simp only [Json.WF] at this
          simp only [getField, List.mem_filterMap] at hx
          obtain ⟨p, hp, hx⟩ := hx
          split at hx
          · simp at hx; subst hx; exact (WFMembers_iff.mp this p hp).2
          · cases hx
        have : ∀ (l : List Json) (c w : Bytes), isUtf8 c = true → (∀ x ∈ l, x.WF) → decAll decStr c l = some w → isUtf8 w = true := by
          intro l
          induction l with
          | nil => intro c w hc _ h; simp [decAll_nil] at h; exact h ▸ hc
          | cons x l ih =>
            intro c w hc hl h
            rw [decAll_cons] at h
            cases x <;> simp [decStr] at h
            · exact ih c w hc (fun y hy => hl y (by simp [hy])) h
            · rename_i s
              refine ih s w ?_ (fun y hy => hl y (by simp [hy])) h
              have := hl (.str s) (by simp)
              simpa [Json.WF] using this
        have hw' := this _ [] w (by decide) hwf hw
        rw [← h]; split
        · decide
        · exact hw'

/-- C33, output that names no version (absent, empty, not a string, or output `null`): it is read in the
configuration's version; the document used has that `cniVersion`, and every other key as printed by the
plugin (as Go decodes it), no key added or lost. -/
theorem c33_unnamed (netconf out cv : Bytes) (ms m : List (Bytes × Json)) (ho : IsOutputObject out ms)
    (hm : Json.toAnyMembers ms = some m) (hc : decodeVersion netconf = .ok cv) (hv : ∀ v, ¬ NamesVersion ms v) :
    ∃ b ms', fixupResultVersion netconf out = .ok (cv, b) ∧ Json.parse b = some (.obj ms') ∧
      GoMap.get? ms' b!"cniVersion" = some (.str cv) ∧
      ∀ k, k ≠ b!"cniVersion" →
        (NoMember ms k → GoMap.get? ms' k = none) ∧ (∀ v, LastMember ms k v → GoMap.get? ms' k = v.toAny) := by
  refine ⟨(Json.obj (GoMap.insert (GoMap.ofList m) b!"cniVersion" (.str cv))).print,
    GoMap.insert (GoMap.ofList m) b!"cniVersion" (.str cv), ?_, ?_, by simp, ?_⟩
  · rw [fixup_raw ho hm hc]
    split
    · rename_i v hg
      rw [toAnyMembers_get? hm] at hg
      split
      · rename_i hne
        exfalso
        refine hv v ⟨lastMember_iff.mpr ?_, hne⟩
        cases hx : GoMap.get? ms.reverse b!"cniVersion" with
        | none => rw [hx] at hg; simp at hg
        | some x =>
          rw [hx] at hg
          simp only [Option.bind_some] at hg
          cases x <;> simp [Json.toAny] at hg
          subst hg; rfl
      · rfl
    · rfl
  · apply Json.parse_print
    have hw : (Json.obj ms).WF := by
      rcases ho with ho | ⟨_, rfl⟩
      · exact Json.parse_WF ho
      · simp [Json.WF, Json.WFMembers]
    have h2 : (Json.obj (GoMap.ofList m)).WF := Json.toAny_WF (.obj ms) _ hw (by simp [Json.toAny, hm])
    simp only [Json.WF] at h2 ⊢
    rw [WFMembers_iff] at h2 ⊢
    intro p hp
    rcases GoMap.mem_insert hp with rfl | hp
    · exact ⟨by show isUtf8 b!"cniVersion" = true; decide, by simpa [Json.WF] using decodeVersion_utf8 hc⟩
    · exact h2 p hp
  · intro k hk
    rw [GoMap.get?_insert_ne _ _ (Ne.symm hk), toAnyMembers_get? hm]
    refine ⟨fun h => by rw [noMember_iff.mp h]; rfl, fun v h => by rw [lastMember_iff.mp h]; rfl⟩

/-- C33, the remaining cases are errors: the configuration has no readable version, or the output is not
an object (nor `null`), or contains a number beyond float64. -/
theorem c33_error (netconf out : Bytes) :
    (∃ e, fixupResultVersion netconf out = .err e) ↔
      (∀ cv, decodeVersion netconf ≠ .ok cv) ∨ ¬ ∃ ms m, IsOutputObject out ms ∧ Json.toAnyMembers ms = some m := by
  have hnp : ∀ b, decodeVersion b ≠ .panic := by
    intro b; unfold decodeVersion; repeat' split
    all_goals simp
  constructor
  · rintro ⟨e, he⟩
    cases hd : decodeVersion netconf with
    | panic => exact absurd hd (hnp _)
    | err e' => exact .inl (fun cv h => by simp at h)
    | ok cv =>
      right
      rintro ⟨ms, m, ho, hm⟩
      rw [fixup_raw ho hm hd] at he
      split at he
      · split at he <;> cases he
      · cases he
  · rintro (h | h)
    · cases hd : decodeVersion netconf with
      | panic => exact absurd hd (hnp _)
      | ok cv => exact absurd hd (h cv)
      | err e => exact ⟨e, by simp [fixupResultVersion, hd]⟩
    · cases hd : decodeVersion netconf with
      | panic => exact absurd hd (hnp _)
      | err e => exact ⟨e, by simp [fixupResultVersion, hd]⟩
      | ok cv =>
        refine ⟨.text b!"failed to unmarshal raw result", ?_⟩
        simp only [fixupResultVersion, hd, Out.bind_ok]
        cases hp : Json.parse out with
        | none => rfl
        | some j =>
          cases j with
          | null => exact absurd ⟨[], [], .inr ⟨hp, rfl⟩, rfl⟩ h
          | obj ms =>
            cases hm : Json.toAnyMembers ms with
            | none => simp [Json.toAny, hm]
            | some m => exact absurd ⟨ms, m, .inl hp, hm⟩ h
          | _ => rfl

/-- The whole reading of a plugin's output: a success is a well-typed result in the version the output
names, or in the configuration's version when it names none. -/
theorem c33_result (netconf out : Bytes) (r : Result) (h : resultOfOutput netconf out = .ok r) :
    WellTyped r ∧ ∃ ms cv, IsOutputObject out ms ∧ decodeVersion netconf = .ok cv ∧
      ((∃ v, NamesVersion ms v ∧ create v out = .ok r) ∨
       ((∀ v, ¬ NamesVersion ms v) ∧ ∃ b, create cv b = .ok r)) := by
  unfold resultOfOutput at h
  cases hf : fixupResultVersion netconf out with
  | panic => rw [hf] at h; simp at h
  | err e => rw [hf] at h; simp at h
  | ok p =>
    obtain ⟨v, b⟩ := p
    rw [hf] at h
    simp only [Out.bind_ok] at h
    refine ⟨(create_wellTyped h).1, ?_⟩
    have hne : ¬ ∃ e, fixupResultVersion netconf out = .err e := by rintro ⟨e, he⟩; rw [hf] at he; cases he
    rw [c33_error] at hne
    have hne : ¬ (∀ cv, decodeVersion netconf ≠ .ok cv) ∧ ∃ ms m, IsOutputObject out ms ∧ Json.toAnyMembers ms = some m := by
      constructor
      · exact fun h => hne (.inl h)
      · exact Classical.byContradiction fun h => hne (.inr h)
    obtain ⟨hcv, ms, m, ho, hm⟩ := hne
    have hcv : ∃ cv, decodeVersion netconf = .ok cv := Classical.byContradiction fun h => hcv fun cv hc => h ⟨cv, hc⟩
    obtain ⟨cv, hcv⟩ := hcv
    refine ⟨ms, cv, ho, hcv, ?_⟩
    by_cases hn : ∃ v, NamesVersion ms v
    · obtain ⟨v', hv'⟩ := hn
      rw [c33_named netconf out v' cv ms m ho hm hcv hv'] at hf
      simp only [Out.ok.injEq, Prod.mk.injEq] at hf
      obtain ⟨rfl, rfl⟩ := hf
      exact .inl ⟨v', hv', h⟩
    · have hn : ∀ v, ¬ NamesVersion ms v := fun v hv => hn ⟨v, hv⟩
      obtain ⟨b', ms', hb, _⟩ := c33_unnamed netconf out cv ms m ho hm hcv hn
      rw [hb] at hf
      simp only [Out.ok.injEq, Prod.mk.injEq] at hf
      obtain ⟨rfl, rfl⟩ := hf
      exact .inr ⟨hn, b', h⟩

/-- Concrete outputs: with a version, without, and `null`. -/
example : (∃ ms, IsOutputObject b!"{\"cniVersion\":\"0.3.1\"}" ms ∧ NamesVersion ms b!"0.3.1") ∧
    resultOfOutput b!"{\"cniVersion\":\"0.4.0\"}" b!"{\"dns\":{\"domain\":\"x\"}}"
      = .ok (.v040 { cniVersion := b!"0.4.0", dns := { domain := b!"x" } }) ∧
    resultOfOutput b!"{}" b!"null" = .ok (.v020 { cniVersion := b!"0.1.0" }) ∧
    resultOfOutput b!"{\"cniVersion\":\"1.0.0\"}" b!"{\"cniVersion\":\"0.3.1\"}" = .ok (.v040 { cniVersion := b!"0.3.1" }) := by
  refine ⟨⟨[(b!"cniVersion", .str b!"0.3.1")], .inl (by rfl), ⟨[], [], rfl, by simp⟩, by simp⟩, ?_, ?_, ?_⟩ <;> rfl

end Verif
