/- The document of any result has valid number literals only. -/
import Verif.Types.ResultJson
import Verif.Json.Clean

namespace Verif

theorem numsOK_jInt (n : Int) : (jInt n).NumsOK := numValid_itoa n

theorem numsOK_append {a b : List (Bytes × Json)} (ha : Json.NumsOKMembers a) (hb : Json.NumsOKMembers b) :
    Json.NumsOKMembers (a ++ b) := by
  rw [NumsOKMembers_iff] at *
  intro m hm
  rw [List.mem_append] at hm
  exact hm.elim (ha m) (hb m)

theorem numsOK_jopt {c : Bool} {k : Bytes} {v : Json} (h : v.NumsOK) : Json.NumsOKMembers (jopt c k v) := by
  cases c
  · trivial
  · exact ⟨h, trivial⟩

theorem numsOK_one {k : Bytes} {v : Json} (h : v.NumsOK) : Json.NumsOKMembers [(k, v)] := ⟨h, trivial⟩

theorem numsOK_arr {α : Type} {f : α → Json} (h : ∀ a, (f a).NumsOK) (l : List α) : (Json.arr (l.map f)).NumsOK := by
  simp only [Json.NumsOK]
  rw [NumsOKList_iff]
  intro j hj
  obtain ⟨a, _, rfl⟩ := List.mem_map.1 hj
  exact h a

theorem numsOK_jPtr {α : Type} {f : α → Json} (h : ∀ a, (f a).NumsOK) (o : Option α) : (jPtr f o).NumsOK := by
  cases o
  · trivial
  · exact h _

theorem numsOK_jStrList (l : List Bytes) : (jStrList l).NumsOK := numsOK_arr (f := Json.str) (fun _ => trivial) l

theorem numsOK_jDns (d : Dns) : (jDns d).NumsOK := by
  simp only [jDns, Dns.members, Json.NumsOK]
  repeat' apply numsOK_append
  all_goals first
    | exact numsOK_jopt (numsOK_jStrList _)
    | exact numsOK_jopt trivial

theorem numsOK_jRoute (r : Route) : (jRoute r).NumsOK := by
  simp only [jRoute, Route.members, Json.NumsOK]
  repeat' apply numsOK_append
  all_goals first
    | exact numsOK_one trivial
    | exact numsOK_jopt (numsOK_jInt _)
    | exact numsOK_jopt (numsOK_jPtr numsOK_jInt _)
    | exact numsOK_jopt trivial

theorem numsOK_jIp020 (i : Ip020) : (jIp020 i).NumsOK := by
  simp only [jIp020, Ip020.members, Json.NumsOK]
  repeat' apply numsOK_append
  all_goals first
    | exact numsOK_one trivial
    | exact numsOK_jopt (numsOK_arr numsOK_jRoute _)
    | exact numsOK_jopt trivial

theorem numsOK_r020 (r : R020) : (Json.obj r.members).NumsOK := by
  simp only [R020.members, Json.NumsOK]
  repeat' apply numsOK_append
  all_goals first
    | exact numsOK_one (numsOK_jDns _)
    | exact numsOK_jopt (numsOK_jPtr numsOK_jIp020 _)
    | exact numsOK_jopt trivial

theorem numsOK_jIntf040 (i : Intf040) : (jIntf040 i).NumsOK := by
  simp only [jIntf040, Intf040.members, Json.NumsOK]
  repeat' apply numsOK_append
  all_goals first
    | exact numsOK_one trivial
    | exact numsOK_jopt trivial

theorem numsOK_jIp040 (i : Ip040) : (jIp040 i).NumsOK := by
  simp only [jIp040, Ip040.members, Json.NumsOK]
  repeat' apply numsOK_append
  all_goals first
    | exact numsOK_one trivial
    | exact numsOK_jopt (numsOK_jPtr numsOK_jInt _)
    | exact numsOK_jopt trivial
    | exact ⟨trivial, trivial⟩

theorem numsOK_r040 (r : R040) : (Json.obj r.members).NumsOK := by
  simp only [R040.members, Json.NumsOK]
  repeat' apply numsOK_append
  all_goals first
    | exact numsOK_one (numsOK_jDns _)
    | exact numsOK_jopt (numsOK_arr (numsOK_jPtr numsOK_jIntf040) _)
    | exact numsOK_jopt (numsOK_arr (numsOK_jPtr numsOK_jIp040) _)
    | exact numsOK_jopt (numsOK_arr (numsOK_jPtr numsOK_jRoute) _)
    | exact numsOK_jopt trivial

/-- The document of any result has valid numbers. -/
theorem Result.json_numsOK {r : Result} {j : Json} (h : r.json = some j) : j.NumsOK := by
  unfold Result.json at h
  split at h
  · cases r with
    | v020 r => simp only [Option.some.injEq] at h; subst h; exact numsOK_r020 r
    | v040 r => simp only [Option.some.injEq] at h; subst h; exact numsOK_r040 r
    | v100 r =>
      simp only [R100.json] at h
      split at h
      · rename_i ms hms
        have := Json.toAny_NumsOK _ _ hms
        simp only [Option.some.injEq] at h; subst h
        simp only [Json.NumsOK] at this ⊢
        rw [NumsOKMembers_iff] at this ⊢
        split
        · intro m hm
          exact this m ((List.mem_filter.1 hm).1)
        · exact this
      · cases h
  · cases h

end Verif
