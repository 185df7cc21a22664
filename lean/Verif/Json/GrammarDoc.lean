/- Documents are read by the grammar of JSON (used in C84). -/
import Verif.Json.Indent
import Verif.Json.GrammarNum
import Verif.Json.GrammarStr

namespace Verif
open Spec

/-! ### white space -/

theorem ws_iff {t : Bytes} : Ws t ↔ ∀ c ∈ t, isWs c = true := by
  unfold Ws isWs
  simp [or_assoc]

theorem ws_take (s : Bytes) : ∃ a, s = a ++ skipWs s ∧ Ws a := by
  refine ⟨s.takeWhile isWs, (List.takeWhile_append_dropWhile ..).symm, ?_⟩
  rw [ws_iff]
  intro c hc
  induction s with
  | nil => cases hc
  | cons x s ih =>
    rw [List.takeWhile_cons] at hc
    split at hc
    · rcases List.mem_cons.1 hc with rfl | hc
      · assumption
      · exact ih hc
    · cases hc

theorem skipWs_ws {a : Bytes} (h : Ws a) (s : Bytes) : skipWs (a ++ s) = skipWs s := by
  rw [ws_iff] at h
  induction a with
  | nil => rfl
  | cons c a ih =>
    unfold skipWs at *
    rw [List.cons_append, List.dropWhile_cons, if_pos (h c (List.mem_cons_self ..))]
    exact ih fun c hc => h c (List.mem_cons_of_mem _ hc)

theorem skipWs_idem (s : Bytes) : skipWs (skipWs s) = skipWs s := by
  obtain ⟨a, e, h⟩ := ws_take s
  have := skipWs_ws h (skipWs s)
  rw [← e] at this
  exact this.symm

theorem ws_append {a b : Bytes} (ha : Ws a) (hb : Ws b) : Ws (a ++ b) := by
  intro c hc
  rcases List.mem_append.1 hc with h | h
  · exact ha c h
  · exact hb c h

theorem skipWs_nil {s : Bytes} : skipWs s = [] ↔ Ws s := by
  constructor
  · intro h
    obtain ⟨a, e, ha⟩ := ws_take s
    rw [h, List.append_nil] at e
    rwa [e]
  · intro h
    have := skipWs_ws h []
    rw [List.append_nil] at this
    exact this

theorem ws_delim {a r : Bytes} (ha : Ws a) (hr : NumDelim r) : NumDelim (a ++ r) := by
  cases a with
  | nil => exact hr
  | cons c a =>
    rw [List.cons_append]
    have := ha c (List.mem_cons_self ..)
    apply numDelim_cons
    rcases this with rfl | rfl | rfl | rfl <;> decide

/-! ### what is read is a text of the value -/

theorem stripWord_eq {w s r : Bytes} (h : stripWord w s = some r) : s = w ++ r := by
  unfold stripWord at h
  split at h
  · rename_i hp
    cases h
    obtain ⟨t, rfl⟩ := (hasPrefix_iff _ _).1 hp
    rw [List.drop_left]
  · cases h

/-- Proof device: models no code. -/
def SoundVal (n : Nat) : Prop := ∀ {s r : Bytes} {j : Json}, parseVal n s = some (j, r) → ∃ a t, s = a ++ t ++ r ∧ Ws a ∧ Text .value t j

/-- Proof device: models no code. -/
def SoundTail (n : Nat) : Prop := ∀ {s r : Bytes} {l : List Json}, parseTail n s = some (l, r) →
  ∃ b, Ws b ∧ ((l = [] ∧ s = b ++ [93] ++ r) ∨ ∃ u, Text .elements u (.arr l) ∧ s = b ++ [44] ++ u ++ [93] ++ r)

/-- Proof device: models no code. -/
def SoundMember (n : Nat) : Prop := ∀ {s r : Bytes} {m : Bytes × Json}, parseMember n s = some (m, r) →
  ∃ a k b c t, s = a ++ k ++ b ++ [58] ++ c ++ t ++ r ∧ Ws a ∧ Ws b ∧ Ws c ∧ StringText k m.1 ∧ Text .value t m.2

/-- Proof device: models no code. -/
def SoundMTail (n : Nat) : Prop := ∀ {s r : Bytes} {l : List (Bytes × Json)}, parseMTail n s = some (l, r) →
  ∃ b, Ws b ∧ ((l = [] ∧ s = b ++ [125] ++ r) ∨ ∃ u, Text .members u (.obj l) ∧ s = b ++ [44] ++ u ++ [125] ++ r)

theorem sound_elements {n : Nat} (hv : SoundVal n) (ht : SoundTail n) {s r2 r : Bytes} {j : Json} {l : List Json} (h : parseVal n s = some (j, r2))
    (h' : parseTail n r2 = some (l, r)) : ∃ u, s = u ++ [93] ++ r ∧ Text .elements u (.arr (j :: l)) := by
  obtain ⟨a, t, rfl, ha, hj⟩ := hv h
  obtain ⟨b, hb, ⟨rfl, rfl⟩ | ⟨u, hu, rfl⟩⟩ := ht h'
  · exact ⟨a ++ t ++ b, by simp, .element ha hb hj⟩
  · exact ⟨a ++ t ++ b ++ [44] ++ u, by simp, .moreElements ha hb hj hu⟩

theorem sound_members {n : Nat} (hv : SoundMember n) (ht : SoundMTail n) {s r2 r : Bytes} {m : Bytes × Json} {l : List (Bytes × Json)}
    (h : parseMember n s = some (m, r2)) (h' : parseMTail n r2 = some (l, r)) : ∃ u, s = u ++ [125] ++ r ∧ Text .members u (.obj (m :: l)) := by
  obtain ⟨a, k, b, c, t, rfl, ha, hb, hc, hk, hj⟩ := hv h
  obtain ⟨d, hd, ⟨rfl, rfl⟩ | ⟨u, hu, rfl⟩⟩ := ht h'
  · exact ⟨a ++ k ++ b ++ [58] ++ c ++ t ++ d, by simp, .member ha hb hc hd hk hj⟩
  · exact ⟨a ++ k ++ b ++ [58] ++ c ++ t ++ d ++ [44] ++ u, by simp, .moreMembers ha hb hc hd hk hj hu⟩

theorem parse_sound (n : Nat) : SoundVal n ∧ SoundTail n ∧ SoundMember n ∧ SoundMTail n := by
  induction n with
  | zero => exact ⟨fun h => by simp [parseVal] at h, fun h => by simp [parseTail] at h, fun h => by simp [parseMember] at h, fun h => by simp [parseMTail] at h⟩
  | succ n ih =>
  obtain ⟨hV, hT, hM, hMT⟩ := ih
  refine ⟨?_, ?_, ?_, ?_⟩
  · intro s r j h
    simp only [parseVal] at h
    obtain ⟨a, e, ha⟩ := ws_take s
    cases hs : skipWs s with
    | nil => rw [hs] at h; cases h
    | cons c s1 =>
    rw [hs] at h e
    simp only at h
    suffices ∃ t, c :: s1 = t ++ r ∧ Text .value t j by
      obtain ⟨t, et, ht⟩ := this
      exact ⟨a, t, by rw [e, et, List.append_assoc], ha, ht⟩
    split at h
    · rename_i hc
      subst hc
      cases hp : parseStr s1 with
      | none => rw [hp] at h; cases h
      | some p =>
      rw [hp] at h
      cases h
      obtain ⟨k, ek, hk⟩ := parseStr_sound hp
      exact ⟨k, ek, .str hk⟩
    split at h
    · rename_i hc
      subst hc
      obtain ⟨w, ew, hw⟩ := ws_take s1
      cases hs1 : skipWs s1 with
      | nil => rw [hs1] at h; cases h
      | cons d r1 =>
      rw [hs1] at h ew
      simp only at h
      split at h
      · rename_i hd
        subst hd
        cases h
        exact ⟨[123] ++ w ++ [125], by rw [ew]; simp, .noMembers hw⟩
      · split at h
        · cases h
        rename_i m r2 hm
        cases ht : parseMTail n r2 with
        | none => rw [ht] at h; cases h
        | some p =>
        rw [ht] at h
        cases h
        rw [← hs1] at hm
        have hm' : parseMember n s1 = some (m, r2) := by
          rw [← hm]
          cases n with
          | zero => rfl
          | succ n => simp only [parseMember, skipWs_idem]
        obtain ⟨u, eu, hu⟩ := sound_members hM hMT hm' ht
        exact ⟨[123] ++ u ++ [125], by rw [eu]; simp, .object hu⟩
    split at h
    · rename_i hc
      subst hc
      obtain ⟨w, ew, hw⟩ := ws_take s1
      cases hs1 : skipWs s1 with
      | nil => rw [hs1] at h; cases h
      | cons d r1 =>
      rw [hs1] at h ew
      simp only at h
      split at h
      · rename_i hd
        subst hd
        cases h
        exact ⟨[91] ++ w ++ [93], by rw [ew]; simp, .noElements hw⟩
      · split at h
        · cases h
        rename_i m r2 hm
        cases ht : parseTail n r2 with
        | none => rw [ht] at h; cases h
        | some p =>
        rw [ht] at h
        cases h
        rw [← hs1, parseVal_ws (skipWs_idem s1)] at hm
        obtain ⟨u, eu, hu⟩ := sound_elements hV hT hm ht
        exact ⟨[91] ++ u ++ [93], by rw [eu]; simp, .array hu⟩
    split at h
    · cases hp : stripWord b!"null" (c :: s1) with
      | none => rw [hp] at h; cases h
      | some p =>
      rw [hp] at h
      cases h
      exact ⟨_, stripWord_eq hp, .null⟩
    split at h
    · cases hp : stripWord b!"true" (c :: s1) with
      | none => rw [hp] at h; cases h
      | some p =>
      rw [hp] at h
      cases h
      exact ⟨_, stripWord_eq hp, .true⟩
    split at h
    · cases hp : stripWord b!"false" (c :: s1) with
      | none => rw [hp] at h; cases h
      | some p =>
      rw [hp] at h
      cases h
      exact ⟨_, stripWord_eq hp, .false⟩
    · cases hp : scanNum (c :: s1) with
      | none => rw [hp] at h; cases h
      | some p =>
      rw [hp] at h
      cases h
      exact ⟨_, scanNum_lit hp, .num (scanNum_sound hp)⟩
  · intro s r l h
    simp only [parseTail] at h
    obtain ⟨b, e, hb⟩ := ws_take s
    refine ⟨b, hb, ?_⟩
    cases hs : skipWs s with
    | nil => rw [hs] at h; cases h
    | cons c s1 =>
    rw [hs] at h e
    simp only at h
    split at h
    · rename_i hc
      subst hc
      cases h
      exact .inl ⟨rfl, by rw [e]; simp⟩
    split at h
    · rename_i hc
      subst hc
      split at h
      · cases h
      rename_i j r1 hj
      cases ht : parseTail n r1 with
      | none => rw [ht] at h; cases h
      | some p =>
      rw [ht] at h
      cases h
      obtain ⟨u, eu, hu⟩ := sound_elements hV hT hj ht
      exact .inr ⟨u, hu, by rw [e, eu]; simp⟩
    · cases h
  · intro s r m h
    simp only [parseMember] at h
    obtain ⟨a, e, ha⟩ := ws_take s
    cases hs : skipWs s with
    | nil => rw [hs] at h; cases h
    | cons c s1 =>
    rw [hs] at h e
    simp only at h
    split at h
    · rename_i hc
      subst hc
      split at h
      · cases h
      rename_i k r1 hk
      obtain ⟨kt, ek, hkt⟩ := parseStr_sound hk
      obtain ⟨b, eb, hb⟩ := ws_take r1
      cases hs1 : skipWs r1 with
      | nil => rw [hs1] at h; cases h
      | cons d r2 =>
      rw [hs1] at h eb
      simp only at h
      split at h
      · rename_i hd
        subst hd
        cases hv : parseVal n r2 with
        | none => rw [hv] at h; cases h
        | some p =>
        rw [hv] at h
        cases h
        obtain ⟨cc, t, et, hcc, ht⟩ := hV hv
        exact ⟨a, kt, b, cc, t, by rw [e, ek, eb, et]; simp, ha, hb, hcc, hkt, ht⟩
      · cases h
    · cases h
  · intro s r l h
    simp only [parseMTail] at h
    obtain ⟨b, e, hb⟩ := ws_take s
    refine ⟨b, hb, ?_⟩
    cases hs : skipWs s with
    | nil => rw [hs] at h; cases h
    | cons c s1 =>
    rw [hs] at h e
    simp only at h
    split at h
    · rename_i hc
      subst hc
      cases h
      exact .inl ⟨rfl, by rw [e]; simp⟩
    split at h
    · rename_i hc
      subst hc
      split at h
      · cases h
      rename_i j r1 hj
      cases ht : parseMTail n r1 with
      | none => rw [ht] at h; cases h
      | some p =>
      rw [ht] at h
      cases h
      obtain ⟨u, eu, hu⟩ := sound_members hM hMT hj ht
      exact .inr ⟨u, hu, by rw [e, eu]; simp⟩
    · cases h

/-! ### every text of a value is read -/

theorem stripWord_self (w r : Bytes) : stripWord w (w ++ r) = some r := by
  unfold stripWord
  rw [if_pos (hasPrefix_append w r), List.drop_left]

theorem parseMember_ws {s t : Bytes} (h : skipWs s = skipWs t) (n : Nat) : parseMember n s = parseMember n t := by
  cases n with
  | zero => simp [parseMember]
  | succ n => simp only [parseMember, h]

theorem parseTail_ws {s t : Bytes} (h : skipWs s = skipWs t) (n : Nat) : parseTail n s = parseTail n t := by
  cases n with
  | zero => simp [parseTail]
  | succ n => simp only [parseTail, h]

theorem parseMTail_ws {s t : Bytes} (h : skipWs s = skipWs t) (n : Nat) : parseMTail n s = parseMTail n t := by
  cases n with
  | zero => simp [parseMTail]
  | succ n => simp only [parseMTail, h]

theorem parseVal_close {n : Nat} {r : Bytes} : parseVal n (93 :: r) = none := by
  cases n with
  | zero => rfl
  | succ n =>
    simp only [parseVal]
    rw [skipWs_cons (by decide)]
    rfl

theorem parseMember_close {n : Nat} {r : Bytes} : parseMember n (125 :: r) = none := by
  cases n with
  | zero => rfl
  | succ n =>
    simp only [parseMember]
    rw [skipWs_cons (by decide)]
    rfl

/-- Proof device: models no code. What reading a text of each kind gives. -/
def Complete (p : Part) (t : Bytes) (j : Json) : Prop :=
  match p with
  | .value => t ≠ [] ∧ ∀ (r : Bytes) (n : Nat), NumDelim r → t.length + 1 ≤ n → parseVal n (t ++ r) = some (j, r)
  | .elements => ∃ x l, j = .arr (x :: l) ∧ ∀ (r : Bytes) (n : Nat), t.length + 1 ≤ n →
      ∃ r2, parseVal n (t ++ 93 :: r) = some (x, r2) ∧ parseTail n r2 = some (l, r)
  | .members => ∃ m l, j = .obj (m :: l) ∧ ∀ (r : Bytes) (n : Nat), t.length + 1 ≤ n →
      ∃ r2, parseMember n (t ++ 125 :: r) = some (m, r2) ∧ parseMTail n r2 = some (l, r)

theorem parse_complete {p : Part} {t : Bytes} {j : Json} (h : Text p t j) : Complete p t j := by
  induction h with
  | null =>
    refine ⟨by decide, fun r n _ hn => ?_⟩
    match n, hn with
    | n + 1, _ =>
      have e : b!"null" ++ r = 0x6e :: (b!"ull" ++ r) := rfl
      simp only [parseVal, e]
      rw [skipWs_cons (by decide)]
      simp only [← e, stripWord_self]
      repeat rw [if_neg (by decide)]
      rw [if_pos trivial]
      rfl
  | true =>
    refine ⟨by decide, fun r n _ hn => ?_⟩
    match n, hn with
    | n + 1, _ =>
      have e : b!"true" ++ r = 0x74 :: (b!"rue" ++ r) := rfl
      simp only [parseVal, e]
      rw [skipWs_cons (by decide)]
      simp only [← e, stripWord_self]
      repeat rw [if_neg (by decide)]
      rw [if_pos trivial]
      rfl
  | false =>
    refine ⟨by decide, fun r n _ hn => ?_⟩
    match n, hn with
    | n + 1, _ =>
      have e : b!"false" ++ r = 0x66 :: (b!"alse" ++ r) := rfl
      simp only [parseVal, e]
      rw [skipWs_cons (by decide)]
      simp only [← e, stripWord_self]
      repeat rw [if_neg (by decide)]
      rw [if_pos trivial]
      rfl
  | @num t h =>
    have hv := numberText_iff.1 h
    obtain ⟨c, x, rfl, hc⟩ := numValid_head hv
    obtain ⟨p, hp⟩ := numValid_iff.1 hv
    have hl := scanNum_lit hp
    rw [List.append_nil] at hl
    refine ⟨by simp, fun r n hr hn => ?_⟩
    match n, hn with
    | n + 1, _ =>
      have hn := isDigit_not hc
      have ha := scanNum_append hp hr
      rw [List.cons_append] at ha
      simp only [parseVal, List.cons_append]
      rw [skipWs_cons hn.1]
      simp only [if_neg hn.2.1, if_neg hn.2.2.1, if_neg hn.2.2.2.1, if_neg hn.2.2.2.2.1, if_neg hn.2.2.2.2.2.1, if_neg hn.2.2.2.2.2.2.1, ha, Option.map_some,
        ← hl]
  | @str t s h =>
    refine ⟨?_, fun r n _ hn => ?_⟩
    · obtain ⟨b, raw, rfl, -⟩ := h
      simp
    match n, hn with
    | n + 1, _ =>
      obtain ⟨x, ex, hx⟩ := parseStr_complete h r
      simp only [parseVal, ex]
      rw [skipWs_cons (by decide)]
      simp only [if_true, hx, Option.map_some]
  | @noElements w hw =>
    refine ⟨by simp, fun r n _ hn => ?_⟩
    match n, hn with
    | n + 1, _ =>
      have e : [91] ++ w ++ [93] ++ r = 91 :: (w ++ 93 :: r) := by simp
      simp only [parseVal, e]
      rw [skipWs_cons (by decide)]
      simp only [skipWs_ws hw, skipWs_cons (c := 93) (r := r) (by decide)]
      rfl
  | @array u l _ ih =>
    obtain ⟨x, l', e, ih⟩ := ih
    cases e
    refine ⟨by simp, fun r n _ hn => ?_⟩
    match n, hn with
    | n + 1, hn =>
      simp only [List.length_append, List.length_cons, List.length_nil] at hn
      obtain ⟨r2, h1, h2⟩ := ih r n (by omega)
      have e : [91] ++ u ++ [93] ++ r = 91 :: (u ++ 93 :: r) := by simp
      simp only [parseVal, e]
      rw [skipWs_cons (by decide)]
      rw [← parseVal_ws (skipWs_idem _)] at h1
      cases hs : skipWs (u ++ 93 :: r) with
      | nil => rw [hs] at h1; cases n <;> cases h1
      | cons d r1 =>
      rw [hs] at h1
      have hd : d ≠ 93 := by
        rintro rfl
        rw [parseVal_close] at h1
        cases h1
      have e1 : (91 : UInt8) ≠ 0x22 := by decide
      have e2 : (91 : UInt8) ≠ 0x7b := by decide
      simp only [if_neg e1, if_neg e2, if_true, hs, if_neg hd, h1, h2, Option.map_some]
  | @noMembers w hw =>
    refine ⟨by simp, fun r n _ hn => ?_⟩
    match n, hn with
    | n + 1, _ =>
      have e : [123] ++ w ++ [125] ++ r = 123 :: (w ++ 125 :: r) := by simp
      simp only [parseVal, e]
      rw [skipWs_cons (by decide)]
      simp only [skipWs_ws hw, skipWs_cons (c := 125) (r := r) (by decide)]
      rfl
  | @object u l _ ih =>
    obtain ⟨x, l', e, ih⟩ := ih
    cases e
    refine ⟨by simp, fun r n _ hn => ?_⟩
    match n, hn with
    | n + 1, hn =>
      simp only [List.length_append, List.length_cons, List.length_nil] at hn
      obtain ⟨r2, h1, h2⟩ := ih r n (by omega)
      have e : [123] ++ u ++ [125] ++ r = 123 :: (u ++ 125 :: r) := by simp
      simp only [parseVal, e]
      rw [skipWs_cons (by decide)]
      rw [← parseMember_ws (skipWs_idem _)] at h1
      cases hs : skipWs (u ++ 125 :: r) with
      | nil => rw [hs] at h1; cases n <;> cases h1
      | cons d r1 =>
      rw [hs] at h1
      have hd : d ≠ 125 := by
        rintro rfl
        rw [parseMember_close] at h1
        cases h1
      have e1 : (123 : UInt8) ≠ 0x22 := by decide
      simp only [if_neg e1, if_true, hs, if_neg hd, h1, h2, Option.map_some]
  | @element a t b j ha hb _ ih =>
    obtain ⟨hne, ih⟩ := ih
    refine ⟨j, [], rfl, fun r n hn => ⟨b ++ 93 :: r, ?_, ?_⟩⟩
    · simp only [List.length_append] at hn
      have e : a ++ t ++ b ++ 93 :: r = a ++ (t ++ (b ++ 93 :: r)) := by simp
      rw [e, parseVal_ws (skipWs_ws ha _)]
      exact ih _ n (ws_delim hb (numDelim_cons (by decide))) (by omega)
    · match n, hn with
      | n + 1, _ =>
        rw [parseTail_ws (skipWs_ws hb _)]
        simp only [parseTail]
        rw [skipWs_cons (by decide)]
        rfl
  | @moreElements a t b u j l ha hb _ _ ih ih' =>
    obtain ⟨hne, ih⟩ := ih
    obtain ⟨x, l', e', ih'⟩ := ih'
    cases e'
    refine ⟨j, x :: l', rfl, fun r n hn => ⟨b ++ 44 :: (u ++ 93 :: r), ?_, ?_⟩⟩
    · simp only [List.length_append, List.length_cons, List.length_nil] at hn
      have e : a ++ t ++ b ++ [44] ++ u ++ 93 :: r = a ++ (t ++ (b ++ 44 :: (u ++ 93 :: r))) := by simp
      rw [e, parseVal_ws (skipWs_ws ha _)]
      exact ih _ n (ws_delim hb (numDelim_cons (by decide))) (by omega)
    · match n, hn with
      | n + 1, hn =>
        simp only [List.length_append, List.length_cons, List.length_nil] at hn
        obtain ⟨r2, h1, h2⟩ := ih' r n (by omega)
        rw [parseTail_ws (skipWs_ws hb _)]
        simp only [parseTail]
        rw [skipWs_cons (by decide)]
        have e1 : (44 : UInt8) ≠ 0x5d := by decide
        simp only [if_neg e1, if_true, h1, h2, Option.map_some]
  | @member a k b c t d name j ha hb hc hd hk _ ih =>
    obtain ⟨hne, ih⟩ := ih
    refine ⟨(name, j), [], rfl, fun r n hn => ⟨d ++ 125 :: r, ?_, ?_⟩⟩
    · simp only [List.length_append, List.length_cons, List.length_nil] at hn
      have e : a ++ k ++ b ++ [58] ++ c ++ t ++ d ++ 125 :: r = a ++ (k ++ (b ++ 58 :: (c ++ (t ++ (d ++ 125 :: r))))) := by simp
      rw [e, parseMember_ws (skipWs_ws ha _)]
      obtain ⟨s, es, hs⟩ := parseStr_complete hk (b ++ 58 :: (c ++ (t ++ (d ++ 125 :: r))))
      match n, hn with
      | n + 1, hn =>
        simp only [parseMember, es]
        rw [skipWs_cons (by decide)]
        simp only [if_true, hs, skipWs_ws hb]
        rw [skipWs_cons (by decide)]
        simp only [if_true]
        rw [parseVal_ws (skipWs_ws hc _), ih _ n (ws_delim hd (numDelim_cons (by decide))) (by omega)]
        rfl
    · match n, hn with
      | n + 1, _ =>
        rw [parseMTail_ws (skipWs_ws hd _)]
        simp only [parseMTail]
        rw [skipWs_cons (by decide)]
        rfl
  | @moreMembers a k b c t d name u j l ha hb hc hd hk _ _ ih ih' =>
    obtain ⟨hne, ih⟩ := ih
    obtain ⟨x, l', e', ih'⟩ := ih'
    cases e'
    refine ⟨(name, j), x :: l', rfl, fun r n hn => ⟨d ++ 44 :: (u ++ 125 :: r), ?_, ?_⟩⟩
    · simp only [List.length_append, List.length_cons, List.length_nil] at hn
      have e : a ++ k ++ b ++ [58] ++ c ++ t ++ d ++ [44] ++ u ++ 125 :: r = a ++ (k ++ (b ++ 58 :: (c ++ (t ++ (d ++ 44 :: (u ++ 125 :: r)))))) := by simp
      rw [e, parseMember_ws (skipWs_ws ha _)]
      obtain ⟨s, es, hs⟩ := parseStr_complete hk (b ++ 58 :: (c ++ (t ++ (d ++ 44 :: (u ++ 125 :: r)))))
      match n, hn with
      | n + 1, hn =>
        simp only [parseMember, es]
        rw [skipWs_cons (by decide)]
        simp only [if_true, hs, skipWs_ws hb]
        rw [skipWs_cons (by decide)]
        simp only [if_true]
        rw [parseVal_ws (skipWs_ws hc _), ih _ n (ws_delim hd (numDelim_cons (by decide))) (by omega)]
        rfl
    · match n, hn with
      | n + 1, hn =>
        simp only [List.length_append, List.length_cons, List.length_nil] at hn
        obtain ⟨r2, h1, h2⟩ := ih' r n (by omega)
        rw [parseMTail_ws (skipWs_ws hd _)]
        simp only [parseMTail]
        rw [skipWs_cons (by decide)]
        have e1 : (44 : UInt8) ≠ 0x7d := by decide
        simp only [if_neg e1, if_true, h1, h2, Option.map_some]

theorem parse_iff {t : Bytes} {j : Json} : Json.parse t = some j ↔ JsonText t j := by
  unfold Json.parse
  constructor
  · intro h
    split at h
    · rename_i j' r hp
      split at h
      · rename_i hr
        cases h
        obtain ⟨a, v, e, ha, hv⟩ := (parse_sound _).1 hp
        exact ⟨a, v, r, e, ha, skipWs_nil.1 hr, hv⟩
      · cases h
    · cases h
  · rintro ⟨a, v, b, rfl, ha, hb, hv⟩
    have hc := (parse_complete hv).2 b ((a ++ v ++ b).length + 1) (by
      have := ws_delim hb (r := []) (by intro c hc; cases hc)
      rwa [List.append_nil] at this) (by simp only [List.length_append]; omega)
    rw [List.append_assoc, parseVal_ws (skipWs_ws ha _)]
    rw [List.append_assoc] at hc
    simp only [hc, skipWs_nil.2 hb, if_true]

end Verif
