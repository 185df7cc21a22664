/- C76: clients whose readings of files are made in pieces, too. -/
import Verif.Spec.Reads
import Verif.Props.Posix

namespace Verif
open Spec

variable {α : Type}

theorem callsBy_coarse_call (i j : Nat) (e : Event) (l : List (Nat × RMove)) :
    callsBy i (coarse ((j, .call e) :: l)) = if j = i then e :: callsBy i (coarse l) else callsBy i (coarse l) := by
  have : coarse ((j, .call e) :: l) = (j, .call e) :: coarse l := rfl
  rw [this, callsBy_call]

theorem callsBy_coarse_other {i j : Nat} {m : RMove} {l : List (Nat × RMove)} (hm : ∀ e, m ≠ .call e) :
    callsBy i (coarse ((j, m) :: l)) = callsBy i (coarse l) := by
  cases m with
  | call e => exact absurd rfl (hm e)
  | opened =>
    have : coarse ((j, .opened) :: l) = (j, .part 0) :: coarse l := rfl
    rw [this, callsBy_part]
  | wrote n =>
    have : coarse ((j, .wrote n) :: l) = (j, .part n) :: coarse l := rfl
    rw [this, callsBy_part]
  | looked => rfl
  | got n => rfl
  | missed n => rfl

/-- A step of a program is its next call, or changes no program. -/
theorem tick_ps {calm : Bool} {s s1 : Sys α} {i : Nat} {m : RMove} (h : Tick calm s i m s1) :
    (∃ a k r, m = .call ⟨a, r⟩ ∧ s.ps[i]? = some (.op a k) ∧ s1.ps = s.ps.set i (k r)) ∨ ((∀ e, m ≠ .call e) ∧ s1.ps = s.ps) := by
  cases h with
  | call hi hs hw hr hd => exact .inl ⟨_, _, _, rfl, hi, rfl⟩
  | removed hi hn => exact .inl ⟨.remove _, _, true, rfl, hi, rfl⟩
  | opened hi hh hc => exact .inr ⟨(by intro e h; cases h), rfl⟩
  | wrote hi hh n hn => exact .inr ⟨(by intro e h; cases h), rfl⟩
  | closed hi hh => exact .inl ⟨.writeFile _ _, _, true, rfl, hi, rfl⟩
  | absent hi hh hn => exact .inl ⟨.readFile _, _, none, rfl, hi, rfl⟩
  | looked hi hh hn => exact .inr ⟨(by intro e h; cases h), rfl⟩
  | got hi hh n => exact .inr ⟨(by intro e h; cases h), rfl⟩
  | ended hi hh he => exact .inl ⟨.readFile _, _, some _, rfl, hi, rfl⟩
  | nodir hi hl hn => exact .inl ⟨.readDir _, _, .error true, rfl, hi, rfl⟩
  | missed hi n hn => exact .inr ⟨(by intro e h; cases h), rfl⟩
  | listed hi hc hn => exact .inl ⟨.readDir _, _, .ok _, rfl, hi, rfl⟩

/-- The calls a program has made lead to where it is. -/
theorem ticks_path {calm : Bool} {s s' : Sys α} {l : List (Nat × RMove)} (h : Ticks calm s l s') (i : Nat) :
    ∀ {p : Prog α}, s.ps[i]? = some p → ∃ p', s'.ps[i]? = some p' ∧ Path p (callsBy i (coarse l)) p' := by
  induction h with
  | refl s => intro p hp; exact ⟨p, hp, .refl _⟩
  | @step s s1 s' j m l ht h ih =>
    intro p hp
    rcases tick_ps ht with ⟨a, k, r, rfl, hi, hs⟩ | ⟨hm, hs⟩
    · rw [callsBy_coarse_call]
      by_cases hij : j = i
      · subst hij
        rw [hi] at hp; cases hp
        obtain ⟨p', h1, h2⟩ := ih (p := k r) (by rw [hs, set_getElem? _ _ _ _ hi, if_pos rfl])
        rw [if_pos rfl]
        exact ⟨p', h1, .step h2⟩
      · obtain ⟨p', h1, h2⟩ := ih (p := p) (by rw [hs, set_getElem? _ _ _ _ hi, if_neg hij]; exact hp)
        rw [if_neg hij]
        exact ⟨p', h1, h2⟩
    · rw [callsBy_coarse_other hm]
      exact ih (by rw [hs]; exact hp)

theorem ticks_split {calm : Bool} {s s' : Sys α} {l l2 : List (Nat × RMove)} (h : Ticks calm s (l ++ l2) s') :
    ∃ s1, Ticks calm s l s1 ∧ Ticks calm s1 l2 s' := by
  induction l generalizing s with
  | nil => exact ⟨s, .refl _, h⟩
  | cons x l ih =>
    cases h with
    | step ht h =>
      obtain ⟨s1, h1, h2⟩ := ih h
      exact ⟨s1, .step ht h1, h2⟩

/-- What holds at any moment: every file has one name for ever, `home`; it has what has been written to it, all or the beginning; a file that has not
all has a writer, has what that has written, and has no other writer; what has been read of a file is the beginning of what is in it. Proof
device: models no code. -/
structure Calm (K : Bytes → Bytes → Prop) (W : Prop) (home : Nat → Option Bytes) (s : Sys α) : Prop where
  ok : s.d.OK
  named : ∀ p n, s.d.name p = some n → home n = some p
  old : ∀ i h, s.hs i = some h → h.file < s.d.next
  data : ∀ n p, home n = some p → Visible (K p) W (s.d.data n)
  wr : ∀ i f off, s.hs i = some (.wr f off) → ∃ p c k, s.ps[i]? = some (.op (.writeFile p c) k) ∧ home f = some p ∧ s.d.data f = c.take off ∧
    off ≤ c.length
  own : ∀ i j f o o', s.hs i = some (.wr f o) → s.hs j = some (.wr f o') → i = j
  rd : ∀ i f b, s.hs i = some (.rd f b) → ∃ p k, s.ps[i]? = some (.op (.readFile p) k) ∧ home f = some p ∧ b <+: s.d.data f
  full : ∀ n p, home n = some p → K p (s.d.data n) ∨ ∃ i off, s.hs i = some (.wr n off)

/-- A program that has nothing open makes a call. -/
theorem Calm.answered {K : Bytes → Bytes → Prop} {W : Prop} {home : Nat → Option Bytes} {s : Sys α} (I : Calm K W home s) {i : Nat} {a : Act}
    {k : a.Resp → Prog α} {r : a.Resp} (hi : s.ps[i]? = some (.op a k)) (hs : Nat → Option Handle) (hh : ∀ j, hs j = if j = i then none else s.hs j)
    (hf : ∀ f off p, s.hs i = some (.wr f off) → home f = some p → K p (s.d.data f)) {ls : Nat → List Bytes} :
    Calm K W home { s with ps := s.ps.set i (k r), hs := hs, ls := ls } := by
  have old : ∀ {j h}, hs j = some h → j ≠ i ∧ s.hs j = some h := by
    intro j h hj
    rw [hh] at hj
    by_cases hji : j = i
    · rw [if_pos hji] at hj; cases hj
    · rw [if_neg hji] at hj; exact ⟨hji, hj⟩
  have same : ∀ {j}, j ≠ i → (s.ps.set i (k r))[j]? = s.ps[j]? := by
    intro j hji
    rw [set_getElem? _ _ _ _ hi, if_neg (Ne.symm hji)]
  refine ⟨I.ok, I.named, fun j h hj => I.old j h (old hj).2, I.data, fun j f off hj => ?_, fun j j' f o o' h1 h2 =>
    I.own j j' f o o' (old h1).2 (old h2).2, fun j f b hj => ?_, fun n p hn => ?_⟩
  · obtain ⟨p, c, k', h1, h2⟩ := I.wr j f off (old hj).2
    exact ⟨p, c, k', (same (old hj).1).trans h1, h2⟩
  · obtain ⟨p, k', h1, h2⟩ := I.rd j f b (old hj).2
    exact ⟨p, k', (same (old hj).1).trans h1, h2⟩
  · rcases I.full n p hn with h | ⟨j, off, h⟩
    · exact .inl h
    · by_cases hji : j = i
      · exact .inl (hf n off p (hji ▸ h) hn)
      · exact .inr ⟨j, off, by rw [← h]; exact (hh j).trans (if_neg hji)⟩

/-- Who has something open is writing or reading. -/
theorem Calm.idle {K : Bytes → Bytes → Prop} {W : Prop} {home : Nat → Option Bytes} {s : Sys α} (I : Calm K W home s) {i : Nat} {a : Act}
    {k : a.Resp → Prog α} (hi : s.ps[i]? = some (.op a k)) (hw : ∀ p c, a ≠ .writeFile p c) (hr : ∀ p, a ≠ .readFile p) : s.hs i = none := by
  cases hh : s.hs i with
  | none => rfl
  | some h =>
    cases h with
    | wr f off =>
      obtain ⟨p, c, k', h1, -⟩ := I.wr i f off hh
      rw [hi] at h1; cases h1
      exact absurd rfl (hw p c)
    | rd f b =>
      obtain ⟨p, k', h1, -⟩ := I.rd i f b hh
      rw [hi] at h1; cases h1
      exact absurd rfl (hr p)

theorem setHandle_none {hs : Nat → Option Handle} {i : Nat} (h : hs i = none) : ∀ j, hs j = if j = i then none else hs j := by
  intro j
  by_cases hj : j = i
  · rw [if_pos hj, hj, h]
  · rw [if_neg hj]

theorem visible_W {K : Bytes → Prop} {W : Prop} {c b : Bytes} (hK : K c) (hW : W) (h : b <+: c) : Visible K W b := by
  obtain ⟨t, rfl⟩ := h
  have := visible_take (c := b ++ t) hK hW b.length
  simpa using this

theorem tick_calm {K : Bytes → Bytes → Prop} {W : Prop} {home : Nat → Option Bytes} {s s1 : Sys α} {i : Nat} {m : RMove} (I : Calm K W home s)
    (h : Tick true s i m s1) (hK : ∀ p c k, s.ps[i]? = some (.op (.writeFile p c) k) → K p c) (hW : m = .opened ∨ (∃ n, m = .wrote n) → W) :
    (∃ home', Calm K W home' s1) ∧ ∀ p b, m = .call ⟨.readFile p, some b⟩ → Visible (K p) W b := by
  cases h with
  | @call a k r hi hs hw hr hd =>
    refine ⟨⟨home, I.answered hi s.hs (setHandle_none (I.idle hi hw hr))
      (by intro f off p h; rw [I.idle hi hw hr] at h; cases h)⟩, ?_⟩
    intro p b he
    have he := RMove.call.inj he
    exact absurd (congrArg Event.act he) (hr p)
  | @removed p k hi hn =>
    have hidle := I.idle (a := .remove p) (k := k) hi (by intro p c h; cases h) (by intro p h; cases h)
    have I1 := I.answered (a := .remove p) (k := k) (r := true) hi s.hs (setHandle_none hidle)
      (by intro f off p h; rw [hidle] at h; cases h) (ls := s.ls)
    refine ⟨⟨home, ⟨unlinked_ok I.ok p, fun q n hq => ?_, I1.old, I1.data, I1.wr, I1.own, I1.rd, I1.full⟩⟩, ?_⟩
    · simp only [Disk.unlinked] at hq
      split at hq
      · cases hq
      · exact I.named q n hq
    · intro p b he
      have he := congrArg Event.act (RMove.call.inj he)
      cases he
  | @opened p c k hi hh hc =>
    refine ⟨?_, by intro p b he; cases he⟩
    have hW := hW (.inl rfl)
    have hc := hc rfl
    have hKc := hK p c k hi
    have olds : ∀ {j h f off}, setHandle s.hs i (some (.wr f off)) j = some h → (j = i ∧ h = .wr f off) ∨ (j ≠ i ∧ s.hs j = some h) := by
      intro j h f off hj
      unfold setHandle at hj
      by_cases hji : j = i
      · rw [if_pos hji] at hj; cases hj; exact .inl ⟨hji, rfl⟩
      · rw [if_neg hji] at hj; exact .inr ⟨hji, hj⟩
    cases hn : s.d.name p with
    | some n =>
      have ho := opened_some hn
      refine ⟨home, ?_⟩
      have hne : ∀ {j h}, s.hs j = some h → h.file ≠ n := fun hj he => hc _ _ hj (by rw [hn, he])
      refine ⟨opened_ok I.ok p, ?_, ?_, ?_, ?_, ?_, ?_, ?_⟩
      · intro q m hq
        rw [ho] at hq
        exact I.named q m hq
      · intro j h hj
        rw [ho] at hj ⊢
        rcases olds hj with ⟨-, rfl⟩ | ⟨-, hj⟩
        · exact I.ok.old p n hn
        · exact I.old j h hj
      · intro m pm hm
        rw [ho]
        simp only
        split
        · rename_i he
          subst he
          rw [I.named p m hn] at hm
          cases hm
          exact visible_W hKc hW List.nil_prefix
        · exact I.data m pm hm
      · intro j f off hj
        rw [ho] at hj ⊢
        rcases olds hj with ⟨rfl, he⟩ | ⟨-, hj⟩
        · cases he
          exact ⟨p, c, k, hi, I.named p n hn, by simp, Nat.zero_le _⟩
        · obtain ⟨q, c', k', h1, h2, h3, h4⟩ := I.wr j f off hj
          have := hne hj
          simp only [Handle.file] at this
          exact ⟨q, c', k', h1, h2, by simp only [if_neg this]; exact h3, h4⟩
      · intro j j' f o o' h1 h2
        rw [ho] at h1 h2
        rcases olds h1 with ⟨e1, he⟩ | ⟨-, h1⟩ <;> rcases olds h2 with ⟨e2, he'⟩ | ⟨-, h2⟩
        · exact e1.trans e2.symm
        · cases he
          exact absurd rfl (hne h2)
        · cases he'
          exact absurd rfl (hne h1)
        · exact I.own j j' f o o' h1 h2
      · intro j f b hj
        rw [ho] at hj ⊢
        rcases olds hj with ⟨-, he⟩ | ⟨-, hj⟩
        · cases he
        · obtain ⟨q, k', h1, h2, h3⟩ := I.rd j f b hj
          have := hne hj
          simp only [Handle.file] at this
          exact ⟨q, k', h1, h2, by simp only [if_neg this]; exact h3⟩
      · intro m pm hm
        rw [ho]
        simp only
        by_cases he : m = n
        · exact .inr ⟨i, 0, by rw [he]; simp [setHandle]⟩
        · rw [if_neg he]
          rcases I.full m pm hm with h | ⟨j, off, h⟩
          · exact .inl h
          · exact .inr ⟨j, off, by rw [setHandle, if_neg (by rintro rfl; rw [hh] at h; cases h)]; exact h⟩
    | none =>
      have ho := opened_none hn
      refine ⟨fun m => if m = s.d.next then some p else home m, ?_⟩
      have hne : ∀ {j h}, s.hs j = some h → h.file ≠ s.d.next := fun hj he => by
        have := I.old _ _ hj
        omega
      refine ⟨opened_ok I.ok p, ?_, ?_, ?_, ?_, ?_, ?_, ?_⟩
      · intro q m hq
        rw [ho] at hq
        simp only at hq ⊢
        split at hq
        · cases hq
          rename_i h
          rw [if_pos rfl, h]
        · have := I.ok.old q m hq
          rw [if_neg (by omega)]
          exact I.named q m hq
      · intro j h hj
        rw [ho] at hj ⊢
        rcases olds hj with ⟨-, rfl⟩ | ⟨-, hj⟩
        · exact Nat.lt_succ_self _
        · exact Nat.lt_succ_of_lt (I.old j h hj)
      · intro m pm hm
        rw [ho]
        simp only at hm ⊢
        by_cases he : m = s.d.next
        · rw [if_pos he] at hm ⊢
          cases hm
          exact visible_W hKc hW List.nil_prefix
        · rw [if_neg he] at hm ⊢
          exact I.data m pm hm
      · intro j f off hj
        rw [ho] at hj ⊢
        rcases olds hj with ⟨rfl, he⟩ | ⟨-, hj⟩
        · cases he
          exact ⟨p, c, k, hi, by simp, by simp, Nat.zero_le _⟩
        · obtain ⟨q, c', k', h1, h2, h3, h4⟩ := I.wr j f off hj
          have := hne hj
          simp only [Handle.file] at this
          exact ⟨q, c', k', h1, by rw [if_neg this]; exact h2, by simp only [if_neg this]; exact h3, h4⟩
      · intro j j' f o o' h1 h2
        rw [ho] at h1 h2
        rcases olds h1 with ⟨e1, he⟩ | ⟨-, h1⟩ <;> rcases olds h2 with ⟨e2, he'⟩ | ⟨-, h2⟩
        · exact e1.trans e2.symm
        · cases he
          exact absurd rfl (hne h2)
        · cases he'
          exact absurd rfl (hne h1)
        · exact I.own j j' f o o' h1 h2
      · intro j f b hj
        rw [ho] at hj ⊢
        rcases olds hj with ⟨-, he⟩ | ⟨-, hj⟩
        · cases he
        · obtain ⟨q, k', h1, h2, h3⟩ := I.rd j f b hj
          have := hne hj
          simp only [Handle.file] at this
          exact ⟨q, k', h1, by rw [if_neg this]; exact h2, by simp only [if_neg this]; exact h3⟩
      · intro m pm hm
        rw [ho]
        simp only at hm ⊢
        by_cases he : m = s.d.next
        · exact .inr ⟨i, 0, by rw [he]; simp [setHandle]⟩
        · rw [if_neg he] at hm ⊢
          rcases I.full m pm hm with h | ⟨j, off, h⟩
          · exact .inl h
          · exact .inr ⟨j, off, by rw [setHandle, if_neg (by rintro rfl; rw [hh] at h; cases h)]; exact h⟩
  | @wrote p c k f off hi hh n hn =>
    refine ⟨⟨home, ?_⟩, by intro p b he; cases he⟩
    have hW := hW (.inr ⟨n, rfl⟩)
    have hKc := hK p c k hi
    obtain ⟨p', c', k', h1, h2, h3, h4⟩ := I.wr i f off hh
    rw [hi] at h1; cases h1
    have olds : ∀ {j h}, setHandle s.hs i (some (.wr f (off + n))) j = some h → (j = i ∧ h = .wr f (off + n)) ∨ (j ≠ i ∧ s.hs j = some h) := by
      intro j h hj
      unfold setHandle at hj
      by_cases hji : j = i
      · rw [if_pos hji] at hj; cases hj; exact .inl ⟨hji, rfl⟩
      · rw [if_neg hji] at hj; exact .inr ⟨hji, hj⟩
    have new : (s.d.written f off ((c.drop off).take n)).data f = c.take (off + n) := by
      simp only [Disk.written, if_pos, h3]
      exact overlay_take hn
    have oth : ∀ {m}, m ≠ f → (s.d.written f off ((c.drop off).take n)).data m = s.d.data m := fun hm => by
      simp only [Disk.written, if_neg hm]
    refine ⟨⟨I.ok.one, I.ok.old⟩, I.named, ?_, ?_, ?_, ?_, ?_, ?_⟩
    · intro j h hj
      rcases olds hj with ⟨-, rfl⟩ | ⟨-, hj⟩
      · exact I.old i (.wr f off) hh
      · exact I.old j h hj
    · intro m pm hm
      by_cases hmf : m = f
      · subst hmf
        rw [h2] at hm
        cases hm
        simp only
        rw [new]
        exact visible_W hKc hW (List.take_prefix _ _)
      · simp only
        rw [oth hmf]
        exact I.data m pm hm
    · intro j f' off' hj
      rcases olds hj with ⟨rfl, he⟩ | ⟨hji, hj⟩
      · cases he
        exact ⟨p, c, k, hi, h2, new, hn⟩
      · obtain ⟨q, c', k', g1, g2, g3, g4⟩ := I.wr j f' off' hj
        have : f' ≠ f := fun e => hji (I.own j i f' off' off hj (by rw [hh, e]))
        exact ⟨q, c', k', g1, g2, (oth this).trans g3, g4⟩
    · intro j j' f' o o' g1 g2
      rcases olds g1 with ⟨e1, he⟩ | ⟨-, g1⟩ <;> rcases olds g2 with ⟨e2, he'⟩ | ⟨-, g2⟩
      · exact e1.trans e2.symm
      · cases he
        rw [e1]
        exact I.own i j' f _ _ hh g2
      · cases he'
        rw [e2]
        exact I.own j i f _ _ g1 hh
      · exact I.own j j' f' o o' g1 g2
    · intro j f' b hj
      rcases olds hj with ⟨-, he⟩ | ⟨-, hj⟩
      · cases he
      · obtain ⟨q, k', g1, g2, g3⟩ := I.rd j f' b hj
        refine ⟨q, k', g1, g2, ?_⟩
        by_cases hf : f' = f
        · subst hf
          simp only
          rw [new]
          rw [h3] at g3
          exact g3.trans (by rw [← List.take_append_drop off (c.take (off + n)), List.take_take, Nat.min_eq_left (by omega)]; exact List.prefix_append _ _)
        · simp only
          rw [oth hf]
          exact g3
    · intro m pm hm
      by_cases hmf : m = f
      · exact .inr ⟨i, off + n, by rw [hmf]; simp [setHandle]⟩
      · simp only
        rw [oth hmf]
        rcases I.full m pm hm with h | ⟨j, off', h⟩
        · exact .inl h
        · exact .inr ⟨j, off', by rw [setHandle, if_neg (by rintro rfl; rw [hh] at h; cases h; exact hmf rfl)]; exact h⟩
  | @closed p c k f hi hh =>
    refine ⟨⟨home, I.answered (a := .writeFile p c) (k := k) (r := true) hi _ (fun j => rfl) ?_⟩, ?_⟩
    · intro f' off' p' hf' hp'
      rw [hh] at hf'; cases hf'
      obtain ⟨p1, c1, k1, h1, h2, h3, -⟩ := I.wr i f _ hh
      rw [hi] at h1; cases h1
      rw [hp'] at h2; cases h2
      rw [h3, List.take_length]
      exact hK _ _ _ hi
    intro p b he
    have he := congrArg Event.act (RMove.call.inj he)
    cases he
  | @absent p k hi hh hn =>
    refine ⟨⟨home, I.answered (a := .readFile p) (k := k) (r := none) hi _ (setHandle_none hh)
      (by intro f off p h; rw [hh] at h; cases h)⟩, ?_⟩
    intro p b he
    have he := RMove.call.inj he
    obtain ⟨h1, h2⟩ := Event.mk.inj he
    cases h1
    cases h2
  | @looked p k f hi hh hn =>
    refine ⟨⟨home, ?_⟩, by intro p b he; cases he⟩
    have olds : ∀ {j h}, setHandle s.hs i (some (.rd f [])) j = some h → (j = i ∧ h = .rd f []) ∨ (j ≠ i ∧ s.hs j = some h) := by
      intro j h hj
      unfold setHandle at hj
      by_cases hji : j = i
      · rw [if_pos hji] at hj; cases hj; exact .inl ⟨hji, rfl⟩
      · rw [if_neg hji] at hj; exact .inr ⟨hji, hj⟩
    refine ⟨I.ok, I.named, ?_, I.data, ?_, ?_, ?_, ?_⟩
    · intro j h hj
      rcases olds hj with ⟨-, rfl⟩ | ⟨-, hj⟩
      · exact I.ok.old p f hn
      · exact I.old j h hj
    · intro j f' off' hj
      rcases olds hj with ⟨rfl, he⟩ | ⟨hji, hj⟩
      · cases he
      · exact I.wr j f' off' hj
    · intro j j' f' o o' g1 g2
      rcases olds g1 with ⟨e1, he⟩ | ⟨-, g1⟩ <;> rcases olds g2 with ⟨e2, he'⟩ | ⟨-, g2⟩
      · exact e1.trans e2.symm
      · cases he
      · cases he'
      · exact I.own j j' f' o o' g1 g2
    · intro j f' b hj
      rcases olds hj with ⟨rfl, he⟩ | ⟨-, hj⟩
      · cases he
        exact ⟨p, k, hi, I.named p f hn, List.nil_prefix⟩
      · exact I.rd j f' b hj
    · intro m pm hm
      rcases I.full m pm hm with h | ⟨j, off, h⟩
      · exact .inl h
      · exact .inr ⟨j, off, (if_neg (by rintro rfl; rw [hh] at h; cases h)).trans h⟩
  | @got p k f b hi hh n =>
    refine ⟨⟨home, ?_⟩, by intro p b he; cases he⟩
    obtain ⟨p', k', h1, h2, h3⟩ := I.rd i f b hh
    rw [hi] at h1; cases h1
    have olds : ∀ {j h}, setHandle s.hs i (some (.rd f (b ++ ((s.d.data f).drop b.length).take n))) j = some h →
        (j = i ∧ h = .rd f (b ++ ((s.d.data f).drop b.length).take n)) ∨ (j ≠ i ∧ s.hs j = some h) := by
      intro j h hj
      unfold setHandle at hj
      by_cases hji : j = i
      · rw [if_pos hji] at hj; cases hj; exact .inl ⟨hji, rfl⟩
      · rw [if_neg hji] at hj; exact .inr ⟨hji, hj⟩
    refine ⟨I.ok, I.named, ?_, I.data, ?_, ?_, ?_, ?_⟩
    · intro j h hj
      rcases olds hj with ⟨-, rfl⟩ | ⟨-, hj⟩
      · exact I.old i (.rd f b) hh
      · exact I.old j h hj
    · intro j f' off' hj
      rcases olds hj with ⟨rfl, he⟩ | ⟨hji, hj⟩
      · cases he
      · exact I.wr j f' off' hj
    · intro j j' f' o o' g1 g2
      rcases olds g1 with ⟨e1, he⟩ | ⟨-, g1⟩ <;> rcases olds g2 with ⟨e2, he'⟩ | ⟨-, g2⟩
      · exact e1.trans e2.symm
      · cases he
      · cases he'
      · exact I.own j j' f' o o' g1 g2
    · intro j f' b' hj
      rcases olds hj with ⟨rfl, he⟩ | ⟨-, hj⟩
      · cases he
        refine ⟨p, k, hi, h2, ?_⟩
        obtain ⟨t, ht⟩ := h3
        rw [← ht]
        simp only [List.drop_left]
        exact List.prefix_append_right_inj b |>.2 (List.take_prefix _ _)
      · exact I.rd j f' b' hj
    · intro m pm hm
      rcases I.full m pm hm with h | ⟨j, off, h⟩
      · exact .inl h
      · exact .inr ⟨j, off, (if_neg (by rintro rfl; rw [hh] at h; cases h)).trans h⟩
  | @ended p k f b hi hh he =>
    obtain ⟨p', k', h1, h2, h3⟩ := I.rd i f b hh
    rw [hi] at h1; cases h1
    refine ⟨⟨home, I.answered (a := .readFile p) (k := k) (r := some b) hi _ (fun j => rfl)
      (by intro f off p h; rw [hh] at h; cases h)⟩, ?_⟩
    intro q b' hq
    have hq := RMove.call.inj hq
    obtain ⟨e1, e2⟩ := Event.mk.inj hq
    cases e1
    cases e2
    have := I.data f _ h2
    rw [← h3.eq_of_length_le he] at this
    exact this
  | @nodir p k hi hl hn =>
    have hidle := I.idle (a := .readDir p) (k := k) hi (by intro p c h; cases h) (by intro p h; cases h)
    refine ⟨⟨home, I.answered (a := .readDir p) (k := k) (r := .error true) hi s.hs (setHandle_none hidle)
      (by intro f off p h; rw [hidle] at h; cases h)⟩, ?_⟩
    intro p b he
    have he := congrArg Event.act (RMove.call.inj he)
    cases he
  | @missed p k hi n hn => exact ⟨⟨home, ⟨I.ok, I.named, I.old, I.data, I.wr, I.own, I.rd, I.full⟩⟩, by intro p b he; cases he⟩
  | @listed p k ns hi hc hn =>
    have hidle := I.idle (a := .readDir p) (k := k) hi (by intro p c h; cases h) (by intro p h; cases h)
    refine ⟨⟨home, I.answered (a := .readDir p) (k := k) (r := .ok ns) hi s.hs (setHandle_none hidle)
      (by intro f off p h; rw [hidle] at h; cases h)⟩, ?_⟩
    intro p b he
    have he := congrArg Event.act (RMove.call.inj he)
    cases he

/-- What is read of a file is what has been written to it, all or the beginning. -/
theorem ticks_calm {K : Bytes → Bytes → Prop} {W : Prop} {s s' : Sys α} {l : List (Nat × RMove)} (h : Ticks true s l s') :
    ∀ {home : Nat → Option Bytes}, Calm K W home s →
    (∀ j p tr q c (k : Bool → Prog α), s.ps[j]? = some p → Path p tr (.op (.writeFile q c) k) → tr <+: callsBy j (coarse l) → K q c) →
    (∀ x ∈ l, x.2 = .opened ∨ (∃ n, x.2 = .wrote n) → W) →
    (∃ home', Calm K W home' s') ∧ ∀ (i : Nat) p b, (i, RMove.call ⟨.readFile p, some b⟩) ∈ l → Visible (K p) W b := by
  induction h with
  | refl s => intro home I _ _; exact ⟨⟨home, I⟩, by intro i p b h; cases h⟩
  | @step s s1 s' i m l ht h ih =>
    intro home I hK hW
    obtain ⟨⟨home1, I1⟩, hr⟩ := tick_calm I ht (fun p c k hi => hK i _ [] p c k hi (.refl _) List.nil_prefix)
      (hW (i, m) (List.mem_cons_self ..))
    obtain ⟨hI, hrs⟩ := ih I1 (by
      intro j p tr q c k hj hpath hpre
      rcases tick_ps ht with ⟨a, k', r, rfl, hi, hs⟩ | ⟨hm, hs⟩
      · rw [hs, set_getElem? _ _ _ _ hi] at hj
        by_cases hij : i = j
        · subst hij
          rw [if_pos rfl] at hj
          cases hj
          refine hK i _ (⟨a, r⟩ :: tr) q c k hi (.step hpath) ?_
          rw [callsBy_coarse_call, if_pos rfl]
          exact List.cons_prefix_cons.2 ⟨rfl, hpre⟩
        · rw [if_neg hij] at hj
          refine hK j p tr q c k hj hpath ?_
          rw [callsBy_coarse_call, if_neg hij]
          exact hpre
      · rw [hs] at hj
        refine hK j p tr q c k hj hpath ?_
        rw [callsBy_coarse_other hm]
        exact hpre) fun x hx => hW x (List.mem_cons_of_mem _ hx)
    refine ⟨hI, fun j p b hm => ?_⟩
    rcases List.mem_cons.1 hm with he | hm
    · cases he
      exact hr p b rfl
    · exact hrs j p b hm

theorem coarse_unfinished {l : List (Nat × RMove)} {x : Nat × RMove} (hx : x ∈ l) (h : x.2 = .opened ∨ ∃ n, x.2 = .wrote n) :
    Unfinished false (coarse l) := by
  obtain ⟨i, m⟩ := x
  rcases h with h | ⟨n, h⟩ <;> cases h
  · exact .inr ⟨(i, .part 0), List.mem_filterMap.2 ⟨_, hx, rfl⟩, 0, rfl⟩
  · exact .inr ⟨(i, .part n), List.mem_filterMap.2 ⟨_, hx, rfl⟩, n, rfl⟩

theorem coarse_call {i : Nat} {e : Event} {l : List (Nat × RMove)} (h : (i, .call e) ∈ coarse l) : (i, .call e) ∈ l := by
  obtain ⟨⟨j, m⟩, hm, he⟩ := List.mem_filterMap.1 h
  cases m with
  | call e' => cases he; exact hm
  | opened => cases he
  | wrote n => cases he
  | looked => cases he
  | got n => cases he
  | missed n => cases he

theorem start_get {clients : List Client} {d : Disk} {j : Nat} {p : Prog Ended} (h : (start clients d).ps[j]? = some p) :
    ∃ cl, clients[j]? = some cl ∧ p = cl.run := by
  simp only [start, List.getElem?_map] at h
  obtain ⟨cl, h1, h2⟩ := Option.map_eq_some_iff.1 h
  exact ⟨cl, h1, h2.symm⟩

theorem clients_calm {clients : List Client} (hp : ∀ cl ∈ clients, cl.Proper) {d : Disk} (ok : d.OK) (h0 : ∀ q, d.name q = none)
    {l : List (Nat × RMove)} {s' : Sys Ended} (h : Ticks true (start clients d) l s') :
    (∃ home, Calm (Entered clients (coarse l)) (Unfinished false (coarse l)) home s') ∧
    ∀ (i : Nat) p b, (i, RMove.call ⟨.readFile p, some b⟩) ∈ l → Visible (Entered clients (coarse l) p) (Unfinished false (coarse l)) b := by
  refine ticks_calm h (home := fun _ => none) ⟨ok, ?_, ?_, ?_, ?_, ?_, ?_, ?_⟩ ?_ fun x hx => coarse_unfinished hx
  · intro p n hn; simp only [start, h0] at hn; cases hn
  · intro i h hh; cases hh
  · intro n p hn; cases hn
  · intro i f off hh; cases hh
  · intro i j f o o' hh; cases hh
  · intro i f b hh; cases hh
  · intro n p hn; cases hn
  · intro j p tr q c k hj hpath hpre
    obtain ⟨cl, hcl, rfl⟩ := start_get hj
    exact entered_of_path hp hcl hpath hpre

theorem ticks_before {calm : Bool} {s s' : Sys α} {l l2 : List (Nat × RMove)} {i : Nat} {a : Act} {r : a.Resp}
    (h : Ticks calm s (l ++ (i, .call ⟨a, r⟩) :: l2) s') : ∃ s1 k, Ticks calm s l s1 ∧ s1.ps[i]? = some (.op a k) := by
  obtain ⟨s1, h1, h2⟩ := ticks_split h
  cases h2 with
  | step ht _ =>
    rcases tick_ps ht with ⟨a', k, r', he, hi, -⟩ | ⟨hm, -⟩
    · cases he
      exact ⟨s1, k, h1, hi⟩
    · exact absurd rfl (hm _)

/-- What has been written is what an ADD stores. -/
theorem client_path {calm : Bool} {clients : List Client} {d : Disk} {l : List (Nat × RMove)} {s' : Sys Ended}
    (h : Ticks calm (start clients d) l s') {i : Nat} {cl : Client} (hi : clients[i]? = some cl) :
    ∃ p', s'.ps[i]? = some p' ∧ Path cl.run (callsBy i (coarse l)) p' :=
  ticks_path h i (p := cl.run) (by simp only [start, List.getElem?_map, hi]; rfl)

/-- Clients use the API concurrently, on whatever attachments, with any behaviour of the plugins; files are opened, written and read in
pieces, and removed meanwhile, but none is emptied by opening it for writing while another has it open. Every execution of a plugin by
one of the sessions is of a plugin of one of its operations, found on its path, with the arguments of its attachment. An ADD passes on
what plugins executed before by the same client returned; CHECK and DEL pass on nothing, or exactly what one ADD of the same attachment
stored before, or, but only if a write has been begun, the blank result. -/
theorem c76_prev (clients : List Client) (hp : ∀ cl ∈ clients, cl.Proper) (d : Disk) (ok : d.OK) (h0 : ∀ q, d.name q = none)
    (l l2 : List (Nat × RMove)) (s' : Sys Ended) (i : Nat) (ops : List ApiOp) (hi : clients[i]? = some (.session ops))
    (path stdin : Bytes) (args : PArgs) (resp : Except GoErr Bytes)
    (h : Ticks true (start clients d) (l ++ (i, .call ⟨.exec path stdin args, resp⟩) :: l2) s') :
    ∃ op ∈ ops, ∃ verb p prev, op.verb = some verb ∧ p ∈ op.plugins ∧
      Invoked op.cfg verb op.name op.version op.rt p prev (callsBy i (coarse l)) ⟨path, stdin, args, resp⟩ ∧
      (op.added ≠ none → prev = none ∨ ∃ e ∈ (callsBy i (coarse l)).execs, ∃ x, Returned e x ∧ prev = some x) ∧
      (op.added = none → Found false clients (coarse l) op prev) := by
  obtain ⟨s1, k, h1, hk⟩ := ticks_before h
  obtain ⟨p', hp', hpath⟩ := client_path h1 hi
  rw [hk] at hp'
  cases hp'
  obtain ⟨op, ho, pre, tr, k', htr, hpo⟩ := path_run hpath
  have hop := hp _ (List.mem_of_getElem? hi) op ho
  obtain ⟨verb, p, prev, hverb, hmem, hinv, hadd, hread⟩ := path_exec hop.ok hop.names hpo resp
  have sub : ∀ e ∈ tr, e ∈ callsBy i (coarse l) := fun e he => by rw [htr]; exact List.mem_append.2 (.inr he)
  refine ⟨op, ho, verb, p, prev, hverb, hmem, invoked_mono hinv sub, fun ha => (hadd ha).imp id ?_, fun ha => ?_⟩
  · rintro ⟨e, he, x, hx, rfl⟩
    exact ⟨e, by rw [htr, execs_append]; exact List.mem_append.2 (.inr he), x, hx, rfl⟩
  · exact readings_found hop.names (fun b hb => (clients_calm hp ok h0 h1).2 i _ b (coarse_call (mem_callsBy (sub _ hb)))) (hread ha)

/-- In the same situation, everything a garbage collection executes is a DEL of a plugin of the list, for an attachment of the network
that is not among the valid ones and that some client has added before, with the arguments of that ADD, and with a previous result
that is what an ADD on that attachment has stored, if any; or, from version 1.1.0, a GC of a plugin of the list with all valid
attachments. -/
theorem c76_gc (clients : List Client) (hp : ∀ cl ∈ clients, cl.Proper) (d : Disk) (ok : d.OK) (h0 : ∀ q, d.name q = none)
    (l l2 : List (Nat × RMove)) (s' : Sys Ended) (i : Nat) (c : CNIConfig) (list : NetConfList) (valid : Option (List GCAttachment))
    (hi : clients[i]? = some (.gc c list valid)) (path stdin : Bytes) (args : PArgs) (resp : Except GoErr Bytes)
    (h : Ticks true (start clients d) (l ++ (i, .call ⟨.exec path stdin args, resp⟩) :: l2) s') :
    list.disableGC = false ∧
    ((∃ a prev, CollectedDel c list valid (callsBy i (coarse l)) a prev ⟨path, stdin, args, resp⟩ ∧ AddedAttachment clients (coarse l) a ∧
        Found false clients (coarse l) (.del c list (rtOf a)) prev) ∨
      (AtLeast list.cniVersion (1, 1, 0) ∧ ∃ p ∈ list.plugins,
        GCInvoked c list.name list.cniVersion valid p ⟨path, stdin, args, resp⟩)) := by
  obtain ⟨s1, k, h1, hk⟩ := ticks_before h
  obtain ⟨p', hp', hpath⟩ := client_path h1 hi
  rw [hk] at hp'
  cases hp'
  have hv := (clients_calm hp ok h0 h1).2
  obtain ⟨k1, h2⟩ := path_reply hpath
  obtain ⟨k2, h3⟩ := path_attempt_op h2
  obtain ⟨hd, h4⟩ := path_gc h3
  refine ⟨hd, ?_⟩
  rcases h4 with ⟨a, q, b, hq, hb, hst, pre, tr, k', htr, hdel⟩ | ⟨hat, p, hm, hg⟩
  · refine .inl ?_
    obtain ⟨hadd, n1, n2, n3, n4⟩ := visible_added (hv i _ _ (coarse_call (mem_callsBy hq))) hb
    obtain ⟨hok, m1, m2⟩ := entryOf_ok hb
    have hn : PlainNames list.name (rtOf a) := by rw [← hst.1]; exact ⟨⟨m1, n4⟩, ⟨n1, n2⟩, ⟨m2, n3⟩⟩
    obtain ⟨verb, p, prev, hverb, hmem, hinv, -, hread⟩ := path_exec (op := .del c list (rtOf a)) hok hn (path_bind_lift hdel) resp
    cases hverb
    have sub : ∀ e ∈ tr, e ∈ callsBy i (coarse l) := fun e he => by rw [htr]; exact List.mem_append.2 (.inr he)
    exact ⟨a, prev, ⟨hst, p, hmem, invoked_mono hinv sub⟩, hadd, readings_found (op := .del c list (rtOf a)) hn (fun b hb =>
      hv i _ b (coarse_call (mem_callsBy (sub _ hb)))) (hread rfl)⟩
  · exact .inr ⟨hat, p, hm, hg resp⟩

/-- In the same situation, every cached result that was asked for directly is what one ADD of the same attachment stored (or nothing, or the
blank result if a write has been begun), and every attachment that has been listed has been added by some client. -/
theorem c76_answers (clients : List Client) (hp : ∀ cl ∈ clients, cl.Proper) (d : Disk) (ok : d.OK) (h0 : ∀ q, d.name q = none)
    (l : List (Nat × RMove)) (s' : Sys Ended) (i : Nat) (h : Ticks true (start clients d) l s') :
    (∀ c list rt n prev, Replied clients s'.ps i n (.cachedResult c list rt) (.ok (.result prev)) →
      Found false clients (coarse l) (.cachedResult c list rt) prev) ∧
    ∀ c cid atts, clients[i]? = some (.listing c cid) → s'.ps[i]? = some (.done (.ok (.listing (.ok atts)))) →
      ∀ a ∈ atts, AddedAttachment clients (coarse l) a := by
  have hv := (clients_calm hp ok h0 h).2
  refine ⟨?_, ?_⟩
  · rintro c list rt n prev ⟨ops, rs, hi, hop, hd, hr⟩
    obtain ⟨p', hp', hpath⟩ := client_path h hi
    rw [hd] at hp'
    cases hp'
    obtain ⟨tr1, tr2, ys, htr, h1, h2⟩ := path_bind_done hpath
    have := (path_done h2).2
    cases this
    obtain ⟨op, ho, tr, hs, hcall⟩ := path_session_done h1 n _ hr
    rw [hop] at ho
    cases ho
    have hproper := hp _ (List.mem_of_getElem? hi) _ (List.mem_of_getElem? hop)
    obtain ⟨tr3, tr4, y, rfl, h3, h4⟩ := path_bind_done hcall
    have := (path_done h4).2
    cases this
    have hread := path_getCachedResult hproper.names h3
    exact readings_found hproper.names (fun b hb => hv i _ b (coarse_call
      (mem_callsBy (by rw [htr]; exact List.mem_append.2 (.inl (hs _ (List.mem_append.2 (.inl hb)))))))) hread
  · intro c cid atts hi hd a ha
    obtain ⟨p', hp', hpath⟩ := client_path h hi
    rw [hd] at hp'
    cases hp'
    obtain ⟨tr1, tr2, x, htr, h1, h2⟩ := path_bind_done hpath
    have he := (path_done h2).2
    cases he
    obtain ⟨o, h3, ho⟩ := path_attempt_done h1
    cases o with
    | err e => cases ho
    | panic => cases ho
    | ok atts' =>
      cases ho
      obtain ⟨q, b, hq, hb⟩ := path_getCachedAttachments h3 a ha
      exact (visible_added (hv i _ _ (coarse_call (mem_callsBy (by rw [htr]; exact List.mem_append.2 (.inl hq))))) hb).1

/-- In the same situation, at any moment, a cache file that exists has the first bytes, or all, of what one ADD has stored or is storing. -/
theorem c76_now (clients : List Client) (hp : ∀ cl ∈ clients, cl.Proper) (d : Disk) (ok : d.OK) (h0 : ∀ q, d.name q = none)
    (l : List (Nat × RMove)) (s' : Sys Ended) (h : Ticks true (start clients d) l s') (q b : Bytes) (hb : s'.d.files q = some b) :
    ∃ r left content, AddedIn clients (coarse l) q r left ∧ left q = some content ∧ b <+: content := by
  obtain ⟨⟨home, I⟩, -⟩ := clients_calm hp ok h0 h
  obtain ⟨n, hn, rfl⟩ := Option.map_eq_some_iff.1 hb
  obtain ⟨content, ⟨op, r, conf, info, hop, hi, rfl, hk, had, has⟩, hc⟩ := I.data n q (I.named q n hn)
  refine ⟨r, _, _, ⟨op, hk, has fun _ => none⟩, FS.set_same .., ?_⟩
  rcases hc with hc | ⟨-, m, -, hc⟩
  · rw [hc]; exact List.prefix_refl _
  · rw [hc]; exact List.take_prefix _ _

/-- When all have ended, a cache file that exists is exactly what one ADD has stored. -/
theorem c76_ended (clients : List Client) (hp : ∀ cl ∈ clients, cl.Proper) (d : Disk) (ok : d.OK) (h0 : ∀ q, d.name q = none)
    (l : List (Nat × RMove)) (s' : Sys Ended) (h : Ticks true (start clients d) l s') (hd : AllEnded s'.ps) (q b : Bytes)
    (hb : s'.d.files q = some b) : ∃ r left, AddedIn clients (coarse l) q r left ∧ left q = some b := by
  obtain ⟨⟨home, I⟩, -⟩ := clients_calm hp ok h0 h
  obtain ⟨n, hn, rfl⟩ := Option.map_eq_some_iff.1 hb
  rcases I.full n q (I.named q n hn) with ⟨op, r, conf, info, hop, hi, hc, hk, had, has⟩ | ⟨i, off, hw⟩
  · exact ⟨r, _, ⟨op, hk, has fun _ => none⟩, FS.set_same ..⟩
  · obtain ⟨p, c, k, h1, -⟩ := I.wr i n off hw
    obtain ⟨o, ho⟩ := hd i _ h1
    cases ho

theorem ticks_back {calm : Bool} {s s' : Sys α} {l : List (Nat × RMove)} (h : Ticks calm s l s') {i : Nat} :
    ∀ {p' : Prog α}, s'.ps[i]? = some p' → ∃ p, s.ps[i]? = some p := by
  induction h with
  | refl s => intro p' h; exact ⟨p', h⟩
  | @step s s1 s' j m l ht h ih =>
    intro p' hp'
    obtain ⟨p, hp⟩ := ih hp'
    rcases tick_ps ht with ⟨a, k, r, -, hi, hs⟩ | ⟨-, hs⟩
    · rw [hs, set_getElem? _ _ _ _ hi] at hp
      split at hp
      · rename_i hij
        exact ⟨_, hij ▸ hi⟩
      · exact ⟨p, hp⟩
    · exact ⟨p, hs ▸ hp⟩

/-- Who is writing to this file has made its name. Proof device: models no code. -/
def Placed (q : Bytes) (s : Sys α) : Prop :=
  ∀ (i f off : Nat) (c : Bytes) (k : Bool → Prog α), s.hs i = some (.wr f off) → s.ps[i]? = some (.op (.writeFile q c) k) → s.d.name q ≠ none

theorem tick_placed {K : Bytes → Bytes → Prop} {W : Prop} {home : Nat → Option Bytes} {s s1 : Sys α} {i : Nat} {m : RMove} {q : Bytes}
    (I : Calm K W home s) (A : Placed q s) (h : Tick true s i m s1) (hno : m ≠ .call ⟨.remove q, true⟩) :
    Placed q s1 ∧ (s.d.name q ≠ none → s1.d.name q ≠ none) ∧ ∀ c, m = .call ⟨.writeFile q c, true⟩ → s1.d.name q ≠ none := by
  have keep : ∀ {a : Act} {k : a.Resp → Prog α} {r : a.Resp} {hs : Nat → Option Handle} {ls : Nat → List Bytes},
      s.ps[i]? = some (.op a k) → hs i = none → (∀ j, j ≠ i → hs j = s.hs j) → Placed q (⟨s.ps.set i (k r), hs, s.d, ls⟩ : Sys α) := by
    intro a k r hs ls hi hn ho j f off c k' h1 h2
    by_cases hji : j = i
    · subst hji
      simp only [hn] at h1
      cases h1
    · simp only [ho j hji] at h1
      simp only [set_getElem? _ _ _ _ hi, if_neg (Ne.symm hji)] at h2
      exact A j f off c k' h1 h2
  cases h with
  | @call a k r hi hs hw hr hd =>
    refine ⟨keep hi (I.idle hi hw hr) (fun _ _ => rfl), id, ?_⟩
    intro c he
    exact absurd (congrArg Event.act (RMove.call.inj he)) (hw q c)
  | @removed p k hi hn =>
    have hpq : q ≠ p := by rintro rfl; exact hno rfl
    have hidle := I.idle (a := .remove p) (k := k) hi (by intro p c h; cases h) (by intro p h; cases h)
    have hname : (s.d.unlinked p).name q = s.d.name q := by simp only [Disk.unlinked, if_neg hpq]
    refine ⟨?_, ?_, ?_⟩
    · intro j f off c k' h1 h2
      simp only [hname]
      exact keep (a := .remove p) (k := k) (r := true) (ls := s.ls) hi hidle (fun _ _ => rfl) j f off c k' h1 h2
    · intro h
      simp only [hname]
      exact h
    · intro c he
      have := congrArg Event.act (RMove.call.inj he)
      cases this
  | @opened p c k hi hh hc =>
    have mono : s.d.name q ≠ none → (s.d.opened p).2.name q ≠ none := by
      intro h
      cases hn : s.d.name p with
      | some n => rw [opened_some hn]; exact h
      | none =>
        rw [opened_none hn]
        simp only
        split
        · simp
        · exact h
    have made : (s.d.opened p).2.name p ≠ none := by
      cases hn : s.d.name p with
      | some n => rw [opened_some hn]; simp [hn]
      | none => rw [opened_none hn]; simp
    refine ⟨?_, mono, by intro c he; cases he⟩
    intro j f off c' k' h1 h2
    by_cases hji : j = i
    · subst hji
      simp only [hi] at h2
      cases h2
      exact made
    · simp only [setHandle, if_neg hji] at h1
      exact mono (A j f off c' k' h1 h2)
  | @wrote p c k f off hi hh n hn =>
    refine ⟨?_, id, by intro c he; cases he⟩
    intro j f' off' c' k' h1 h2
    by_cases hji : j = i
    · subst hji
      exact A j f off c' k' hh h2
    · simp only [setHandle, if_neg hji] at h1
      exact A j f' off' c' k' h1 h2
  | @closed p c k f hi hh =>
    refine ⟨keep (a := .writeFile p c) (k := k) (r := true) hi (if_pos rfl) fun j hj => if_neg hj, id, ?_⟩
    intro c' he
    have := congrArg Event.act (RMove.call.inj he)
    cases this
    exact A i f _ c k hh hi
  | @absent p k hi hh hn =>
    refine ⟨keep (a := .readFile p) (k := k) (r := none) hi hh fun _ _ => rfl, id, ?_⟩
    intro c' he
    have := congrArg Event.act (RMove.call.inj he)
    cases this
  | @looked p k f hi hh hn =>
    refine ⟨?_, id, by intro c he; cases he⟩
    intro j f' off' c' k' h1 h2
    by_cases hji : j = i
    · subst hji
      simp only [hi] at h2
      cases h2
    · simp only [setHandle, if_neg hji] at h1
      exact A j f' off' c' k' h1 h2
  | @got p k f b hi hh n =>
    refine ⟨?_, id, by intro c he; cases he⟩
    intro j f' off' c' k' h1 h2
    by_cases hji : j = i
    · subst hji
      simp only [hi] at h2
      cases h2
    · simp only [setHandle, if_neg hji] at h1
      exact A j f' off' c' k' h1 h2
  | @ended p k f b hi hh he =>
    refine ⟨keep (a := .readFile p) (k := k) (r := some b) hi (if_pos rfl) fun j hj => if_neg hj, id, ?_⟩
    intro c' he
    have := congrArg Event.act (RMove.call.inj he)
    cases this
  | @nodir p k hi hl hn =>
    have hidle := I.idle (a := .readDir p) (k := k) hi (by intro p c h; cases h) (by intro p h; cases h)
    refine ⟨keep (a := .readDir p) (k := k) (r := .error true) hi hidle fun _ _ => rfl, id, ?_⟩
    intro c' he
    have := congrArg Event.act (RMove.call.inj he)
    cases this
  | @missed p k hi n hn => exact ⟨A, id, by intro c he; cases he⟩
  | @listed p k ns hi hc hn =>
    have hidle := I.idle (a := .readDir p) (k := k) hi (by intro p c h; cases h) (by intro p h; cases h)
    refine ⟨keep (a := .readDir p) (k := k) (r := .ok ns) hi hidle fun _ _ => rfl, id, ?_⟩
    intro c' he
    have := congrArg Event.act (RMove.call.inj he)
    cases this

theorem ticks_placed {q : Bytes} {s s' : Sys α} {l : List (Nat × RMove)} (h : Ticks true s l s') :
    ∀ {home : Nat → Option Bytes}, Calm (fun _ _ => True) True home s → Placed q s → (∀ i, (i, RMove.call ⟨.remove q, true⟩) ∉ l) →
    (s.d.name q ≠ none → s'.d.name q ≠ none) ∧ ∀ (i : Nat) c, (i, RMove.call ⟨.writeFile q c, true⟩) ∈ l → s'.d.name q ≠ none := by
  induction h with
  | refl s => intro home _ _ _; exact ⟨id, by intro i c h; cases h⟩
  | @step s s1 s' i m l ht h ih =>
    intro home I A hno
    obtain ⟨A1, h1, h2⟩ := tick_placed I A ht (by rintro rfl; exact hno i (List.mem_cons_self ..))
    obtain ⟨⟨home1, I1⟩, -⟩ := tick_calm I ht (fun _ _ _ _ => trivial) fun _ => trivial
    obtain ⟨h3, h4⟩ := ih I1 A1 fun j hj => hno j (List.mem_cons_of_mem _ hj)
    refine ⟨fun h => h3 (h1 h), fun j c hj => ?_⟩
    rcases List.mem_cons.1 hj with he | hj
    · cases he
      exact h3 (h2 c rfl)
    · exact h4 j c hj

/-- When all have ended, an attachment that was added successfully and that no one may remove has a cache file, which is exactly what one ADD has stored. -/
theorem c76_kept (clients : List Client) (hp : ∀ cl ∈ clients, cl.Proper) (d : Disk) (ok : d.OK) (h0 : ∀ q, d.name q = none)
    (l : List (Nat × RMove)) (s' : Sys Ended) (h : Ticks true (start clients d) l s') (hd : AllEnded s'.ps) (j n : Nat) (op : ApiOp)
    (ha : op.added ≠ none) (x : Reply) (hr : Replied clients s'.ps j n op (.ok x)) (hno : ∀ cl ∈ clients, ¬ MayRemove op.key cl) :
    ∃ r left b, AddedIn clients (coarse l) op.key r left ∧ left op.key = some b ∧ s'.d.files op.key = some b := by
  obtain ⟨ops, rs, hc, hn, hj, hx⟩ := hr
  obtain ⟨p', hp', hpath⟩ := client_path h hc
  rw [hj] at hp'
  cases hp'
  obtain ⟨rs', he, hs⟩ := path_run_done hpath
  cases he
  obtain ⟨op', ho, tr, hsub, hcall⟩ := path_session_done hs n x hx
  rw [hn] at ho
  cases ho
  obtain ⟨content, hm⟩ := path_added (hp _ (List.mem_of_getElem? hc) op (List.mem_of_getElem? hn)) ha hcall
  have hname : s'.d.name op.key ≠ none := by
    refine (ticks_placed h (q := op.key) (home := fun _ => none) ⟨ok, ?_, ?_, ?_, ?_, ?_, ?_, ?_⟩ ?_ ?_).2 j content
      (coarse_call (mem_callsBy (hsub _ hm)))
    · intro p n hn; simp only [start, h0] at hn; cases hn
    · intro i h hh; cases hh
    · intro n p hn; cases hn
    · intro i f off hh; cases hh
    · intro i j f o o' hh; cases hh
    · intro i f b hh; cases hh
    · intro n p hn; cases hn
    · intro i f off c k hh; cases hh
    · intro i hi
      obtain ⟨l1, l2, rfl⟩ := List.append_of_mem hi
      obtain ⟨s1, k, h1, hk⟩ := ticks_before h
      obtain ⟨p, h2⟩ := ticks_back h1 hk
      obtain ⟨cl, hcl, rfl⟩ := start_get h2
      obtain ⟨p', h3, h4⟩ := client_path h1 hcl
      rw [hk] at h3
      cases h3
      exact hno cl (List.mem_of_getElem? hcl) (path_client_remove (hp cl (List.mem_of_getElem? hcl)) h4)
  cases hb : s'.d.files op.key with
  | none =>
    simp only [Disk.files] at hb
    exact absurd (Option.map_eq_none_iff.1 hb) hname
  | some b =>
    obtain ⟨r, left, h1, h2⟩ := c76_ended clients hp d ok h0 l s' h hd _ b hb
    exact ⟨r, left, b, h1, h2, rfl⟩

/-- No file is written twice. Proof device: models no code. -/
def OnceEach (x : Prog α) : Prop :=
  ∀ p tr c tr' c' (k : Bool → Prog α), ¬ Path x (tr ++ ⟨.writeFile p c, true⟩ :: tr') (.op (.writeFile p c') k)

theorem session_once {ops : List ApiOp} (hp : ∀ op ∈ ops, op.Proper)
    (h : ops.Pairwise fun op op' => op.added ≠ none → op'.added ≠ none → op.key ≠ op'.key) : OnceEach (session ops) := by
  induction ops with
  | nil => intro p tr c tr' c' k h; exact absurd (path_done h).1 (by simp)
  | cons op ops ih =>
    obtain ⟨h1, h2⟩ := List.pairwise_cons.1 h
    intro p tr c tr' c' k hpath
    have hop := hp op (List.mem_cons_self ..)
    rcases path_bind_op hpath with ⟨k1, h3⟩ | ⟨t1, t2, x, ht, h3, h4⟩
    · obtain ⟨k2, h3⟩ := path_attempt_op h3
      obtain ⟨k3, h4⟩ := path_next h3
      obtain ⟨_, _, _, _, _, _, _, hr⟩ := path_write hop h4
      obtain ⟨_, _, _, _, _, _, _, hr'⟩ := path_write hop h3
      have e1 := runs_path (hr fun _ => none)
      have e2 := runs_path (hr' fun _ => none)
      have := path_det (rest := tr' ++ [⟨.writeFile p c', true⟩]) e1 (p' := .done (.ok _)) (by
        have he : tr ++ [⟨.writeFile p c, true⟩] ++ (tr' ++ [⟨.writeFile p c', true⟩]) =
          tr ++ ⟨.writeFile p c, true⟩ :: tr' ++ [⟨.writeFile p c', true⟩] := by simp
        rw [he]
        exact e2)
      simp at this
    · rcases path_bind_op h4 with ⟨k1, h4⟩ | ⟨-, t3, ys, -, -, h5⟩
      · have hin : ∃ op' ∈ ops, op'.added ≠ none ∧ op'.key = p := by
          obtain ⟨op', ho, pre, t, k2, -, hq⟩ := path_session h4
          obtain ⟨r, conf, info, ha, hk, -⟩ := path_write (hp op' (List.mem_cons_of_mem _ ho)) hq
          exact ⟨op', ho, (by rw [ha]; intro h; cases h), hk.symm⟩
        rcases List.append_eq_append_iff.1 ht with ⟨u, hu, hu'⟩ | ⟨u, hu, hu'⟩
        · cases u with
          | nil =>
            simp only [List.nil_append] at hu'
            rw [← hu'] at h4
            exact ih (fun o ho => hp o (List.mem_cons_of_mem _ ho)) h2 p [] c tr' c' k1 h4
          | cons e u =>
            simp only [List.cons_append, List.cons.injEq] at hu'
            obtain ⟨he, -⟩ := hu'
            subst he
            obtain ⟨o, h5, -⟩ := path_attempt_done h3
            rw [hu] at h5
            obtain ⟨k3, h6⟩ := path_next h5
            obtain ⟨r, conf, info, ha, hk, -⟩ := path_write hop h6
            obtain ⟨op', ho, ha', hk'⟩ := hin
            exact h1 op' ho (by rw [ha]; intro h; cases h) ha' (hk.symm.trans hk'.symm)
        · rw [hu'] at h4
          exact ih (fun o ho => hp o (List.mem_cons_of_mem _ ho)) h2 p u c tr' c' k1 h4
      · exact absurd (path_done h5).2 (by simp)

theorem run_once {clients : List Client} (hp : ∀ cl ∈ clients, cl.Proper) (ha : AddedOnce clients) {i : Nat} {cl : Client}
    (hi : clients[i]? = some cl) : OnceEach cl.run := by
  intro p tr c tr' c' k h
  obtain ⟨ops, rfl⟩ := path_client_write h
  rcases path_bind_op h with ⟨k1, h1⟩ | ⟨-, t, x, -, -, h2⟩
  · refine session_once (hp _ (List.mem_of_getElem? hi)) ?_ p tr c tr' c' k1 h1
    rw [List.pairwise_iff_getElem]
    intro m n hm hn hmn h3 h4 he
    have := (ha i i m n ops ops _ _ hi hi (List.getElem?_eq_getElem hm) (List.getElem?_eq_getElem hn) h3 h4 he).2
    omega
  · exact absurd (path_done h2).2 (by simp)

/-- Who may still write to a file that has a name is just writing to it. Proof device: models no code. -/
structure Sole (s : Sys α) : Prop where
  apart : ∀ (i j : Nat) (p : Bytes), Wr s.ps i p → Wr s.ps j p → i = j
  once : ∀ (i : Nat) (x : Prog α), s.ps[i]? = some x → OnceEach x
  now : ∀ (i : Nat) (p : Bytes), s.d.name p ≠ none → Wr s.ps i p → (∃ f off, s.hs i = some (.wr f off)) ∧ ∃ c k, s.ps[i]? = some (.op (.writeFile p c) k)

theorem OnceEach.next {a : Act} {k : a.Resp → Prog α} (h : OnceEach (.op a k)) (r : a.Resp) : OnceEach (k r) := by
  intro p tr c tr' c' k' hp
  exact h p (⟨a, r⟩ :: tr) c tr' c' k' (.step hp)

/-- A program makes a call. -/
theorem Sole.answered {s : Sys α} (S : Sole s) {i : Nat} {a : Act} {k : a.Resp → Prog α} {r : a.Resp} (hi : s.ps[i]? = some (.op a k))
    (hr : ∀ p c, a = .writeFile p c → HEq r true) (hs : Nat → Option Handle) (hh : ∀ j, j ≠ i → hs j = s.hs j) (d : Disk)
    (hd : ∀ p, d.name p ≠ none → s.d.name p ≠ none) {ls : Nat → List Bytes} : Sole (⟨s.ps.set i (k r), hs, d, ls⟩ : Sys α) := by
  refine ⟨fun j j' p h1 h2 => S.apart j j' p (Wr.set hi h1) (Wr.set hi h2), fun j x hj => ?_, fun j p hn hw => ?_⟩
  · simp only [set_getElem? _ _ _ _ hi] at hj
    split at hj
    · cases hj
      exact (S.once i _ hi).next r
    · exact S.once j x hj
  · obtain ⟨⟨f, off, h1⟩, c, k', h2⟩ := S.now j p (hd p hn) (Wr.set hi hw)
    by_cases hji : j = i
    · subst hji
      rw [hi] at h2
      cases h2
      obtain ⟨x, tr, c', k2, hx, hpath⟩ := hw
      simp only [set_getElem? _ _ _ _ hi, if_pos] at hx
      cases hx
      have := eq_of_heq (hr p c rfl)
      subst this
      exact absurd (Path.step (a := .writeFile p c) (r := true) hpath) (S.once j _ hi p [] c tr c' k2)
    · refine ⟨⟨f, off, (hh j hji).trans h1⟩, c, k', ?_⟩
      simp only [set_getElem? _ _ _ _ hi, if_neg (Ne.symm hji)]
      exact h2

theorem tick_sole {s s1 : Sys α} {i : Nat} {m : RMove} (S : Sole s) (h : Tick false s i m s1) : Sole s1 ∧ Tick true s i m s1 := by
  cases h with
  | @call a k r hi hs hw hr hd =>
    exact ⟨S.answered hi (by intro p c h; exact absurd h (hw p c)) _ (fun _ _ => rfl) _ fun _ h => h, .call hi hs hw hr hd⟩
  | @removed p k hi hn =>
    refine ⟨S.answered (a := .remove p) (k := k) (r := true) hi (by intro p c h; cases h) _ (fun _ _ => rfl) _ ?_, .removed hi hn⟩
    intro q hq
    simp only [Disk.unlinked] at hq
    split at hq
    · exact absurd rfl hq
    · exact hq
  | @opened p c k hi hh hc =>
    have hwr : Wr s.ps i p := ⟨_, [], c, k, hi, .refl _⟩
    have hnone : s.d.name p = none := by
      cases hn : s.d.name p with
      | none => rfl
      | some n =>
        obtain ⟨⟨f, off, h1⟩, -⟩ := S.now i p (by rw [hn]; simp) hwr
        rw [hh] at h1; cases h1
    refine ⟨⟨S.apart, S.once, fun j q hq hw => ?_⟩, .opened hi hh (by intro _ j h _; rw [hnone]; intro h; cases h)⟩
    by_cases hqp : q = p
    · subst hqp
      have := S.apart j i q hw hwr
      subst this
      exact ⟨⟨(s.d.opened q).1, 0, if_pos rfl⟩, c, k, hi⟩
    · have hq' : s.d.name q ≠ none := by
        rw [opened_none hnone] at hq
        simp only [if_neg hqp] at hq
        exact hq
      obtain ⟨⟨f, off, h1⟩, h2⟩ := S.now j q hq' hw
      refine ⟨⟨f, off, ?_⟩, h2⟩
      simp only [setHandle]
      rw [if_neg (by rintro rfl; rw [hh] at h1; cases h1)]
      exact h1
  | @wrote p c k f off hi hh n hn =>
    refine ⟨⟨S.apart, S.once, fun j q hq hw => ?_⟩, .wrote hi hh n hn⟩
    obtain ⟨⟨f', off', h1⟩, h2⟩ := S.now j q hq hw
    refine ⟨?_, h2⟩
    by_cases hji : j = i
    · exact ⟨f, off + n, by simp only [setHandle, if_pos hji]⟩
    · exact ⟨f', off', by simp only [setHandle, if_neg hji]; exact h1⟩
  | @closed p c k f hi hh =>
    exact ⟨S.answered (a := .writeFile p c) (k := k) (r := true) hi (by intro p c _; exact .rfl) _ (fun j hj => if_neg hj) _ fun _ h => h,
      .closed hi hh⟩
  | @absent p k hi hh hn =>
    exact ⟨S.answered (a := .readFile p) (k := k) (r := none) hi (by intro p c h; cases h) _ (fun _ _ => rfl) _ fun _ h => h, .absent hi hh hn⟩
  | @looked p k f hi hh hn =>
    refine ⟨⟨S.apart, S.once, fun j q hq hw => ?_⟩, .looked hi hh hn⟩
    obtain ⟨⟨f', off', h1⟩, h2⟩ := S.now j q hq hw
    exact ⟨⟨f', off', (if_neg (by rintro rfl; rw [hh] at h1; cases h1)).trans h1⟩, h2⟩
  | @got p k f b hi hh n =>
    refine ⟨⟨S.apart, S.once, fun j q hq hw => ?_⟩, .got hi hh n⟩
    obtain ⟨⟨f', off', h1⟩, h2⟩ := S.now j q hq hw
    exact ⟨⟨f', off', (if_neg (by rintro rfl; rw [hh] at h1; cases h1)).trans h1⟩, h2⟩
  | @ended p k f b hi hh he =>
    exact ⟨S.answered (a := .readFile p) (k := k) (r := some b) hi (by intro p c h; cases h) _ (fun j hj => if_neg hj) _ fun _ h => h, .ended hi hh he⟩
  | @nodir p k hi hl hn =>
    exact ⟨S.answered (a := .readDir p) (k := k) (r := .error true) hi (by intro p c h; cases h) _ (fun _ _ => rfl) _ fun _ h => h, .nodir hi hl hn⟩
  | @missed p k hi n hn => exact ⟨⟨S.apart, S.once, S.now⟩, .missed hi n hn⟩
  | @listed p k ns hi hc hn =>
    exact ⟨S.answered (a := .readDir p) (k := k) (r := .ok ns) hi (by intro p c h; cases h) _ (fun _ _ => rfl) _ fun _ h => h, .listed hi hc hn⟩

theorem ticks_sole {s s' : Sys α} {l : List (Nat × RMove)} (h : Ticks false s l s') : Sole s → Ticks true s l s' := by
  induction h with
  | refl => intro _; exact .refl _
  | step ht _ ih => intro S; exact .step (tick_sole S ht).2 (ih (tick_sole S ht).1)

/-- Who may write to a file has an ADD of that attachment. -/
theorem start_writer {clients : List Client} (hp : ∀ cl ∈ clients, cl.Proper) {d : Disk} {i : Nat} {p : Bytes} (h : Wr (start clients d).ps i p) :
    ∃ ops, clients[i]? = some (.session ops) ∧ ∃ (m : Nat) (op : ApiOp), ops[m]? = some op ∧ op.added ≠ none ∧ op.key = p := by
  obtain ⟨x, tr, c, k, hx, hpath⟩ := h
  obtain ⟨cl, hcl, rfl⟩ := start_get hx
  obtain ⟨ops, rfl⟩ := path_client_write hpath
  obtain ⟨op, ho, pre, tr, k', htr, hpo⟩ := path_run hpath
  obtain ⟨r, conf, info, h1, h2, -⟩ := path_write (hp _ (List.mem_of_getElem? hcl) op ho) hpo
  obtain ⟨m, hm⟩ := List.getElem?_of_mem ho
  exact ⟨ops, hcl, m, op, hm, (by rw [h1]; intro h; cases h), h2.symm⟩

theorem start_sole {clients : List Client} (hp : ∀ cl ∈ clients, cl.Proper) (ha : AddedOnce clients) {d : Disk} (h0 : ∀ q, d.name q = none) :
    Sole (start clients d) := by
  refine ⟨?_, ?_, ?_⟩
  · intro i j p h1 h2
    obtain ⟨ops, hc, m, op, ho, h3, h4⟩ := start_writer hp h1
    obtain ⟨ops', hc', n, op', ho', h3', h4'⟩ := start_writer hp h2
    exact (ha i j m n ops ops' op op' hc hc' ho ho' h3 h3' (h4.trans h4'.symm)).1
  · intro i x hx
    obtain ⟨cl, hcl, rfl⟩ := start_get hx
    exact run_once hp ha hcl
  · intro i p hn
    exact absurd (h0 p) hn

/-- If no attachment is added twice, and there are no cache files at the beginning, then no file is emptied while another has it open: the
theorems above hold without that assumption. -/
theorem c76_once (clients : List Client) (hp : ∀ cl ∈ clients, cl.Proper) (ha : AddedOnce clients) (d : Disk) (h0 : ∀ q, d.name q = none)
    (l : List (Nat × RMove)) (s' : Sys Ended) (h : Ticks false (start clients d) l s') : Ticks true (start clients d) l s' := by
  exact ticks_sole h (start_sole hp ha h0)

namespace Example

/-- What a client is to do next. Test data; models no code. -/
inductive Task where
  | go
  | opn
  | wr (n : Nat)
  | look
  | get (n : Nat)

/-- One step by schedule. Used in examples only. Proof device: models no code. -/
def tickOne (find : Bytes → Except GoErr Bytes) (exec : Bytes → Bytes → PArgs → Except GoErr Bytes) (s : Sys α) (i : Nat) :
    Task → Option (RMove × Sys α)
  | .go => match s.ps[i]? with
    | some (.op (.writeFile p c) k) => match s.hs i with
      | some (.wr _ off) =>
        if off = c.length then some (.call ⟨.writeFile p c, true⟩, { s with ps := s.ps.set i (k true), hs := setHandle s.hs i none }) else none
      | _ => none
    | some (.op (.readFile p) k) => match s.hs i with
      | none =>
        if s.d.name p = none then some (.call ⟨.readFile p, (none : Option Bytes)⟩, { s with ps := s.ps.set i (k none) }) else none
      | some (.rd f b) =>
        if (s.d.data f).length ≤ b.length then
          some (.call ⟨.readFile p, some b⟩, { s with ps := s.ps.set i (k (some b)), hs := setHandle s.hs i none })
        else none
      | _ => none
    | some (.op (.remove p) k) =>
      if s.d.name p ≠ none then some (.call ⟨.remove p, true⟩, { s with ps := s.ps.set i (k true), d := s.d.unlinked p }) else none
    | some (.op a k) => (look find exec s.d.files a).map fun r => (.call ⟨a, r⟩, { s with ps := s.ps.set i (k r) })
    | _ => none
  | .opn => match s.ps[i]?, s.hs i with
    | some (.op (.writeFile p _) _), none =>
      some (.opened, { s with hs := setHandle s.hs i (some (.wr (s.d.opened p).1 0)), d := (s.d.opened p).2 })
    | _, _ => none
  | .wr n => match s.ps[i]?, s.hs i with
    | some (.op (.writeFile _ c) _), some (.wr f off) =>
      if off + n ≤ c.length then
        some (.wrote n, { s with hs := setHandle s.hs i (some (.wr f (off + n))), d := s.d.written f off ((c.drop off).take n) })
      else none
    | _, _ => none
  | .look => match s.ps[i]?, s.hs i with
    | some (.op (.readFile p) _), none => (s.d.name p).map fun f => (.looked, { s with hs := setHandle s.hs i (some (.rd f [])) })
    | _, _ => none
  | .get n => match s.ps[i]?, s.hs i with
    | some (.op (.readFile _) _), some (.rd f b) =>
      some (.got n, { s with hs := setHandle s.hs i (some (.rd f (b ++ ((s.d.data f).drop b.length).take n))) })
    | _, _ => none

theorem tickOne_tick {find : Bytes → Except GoErr Bytes} {exec : Bytes → Bytes → PArgs → Except GoErr Bytes} {s : Sys α} {i : Nat} {t : Task}
    {x : RMove × Sys α} (h : tickOne find exec s i t = some x) : Tick false s i x.1 x.2 := by
  cases t with
  | go =>
    simp only [tickOne] at h
    split at h
    · rename_i p c k hi
      split at h
      · rename_i f off hh
        split at h
        · rename_i ho
          subst ho
          cases h
          exact .closed hi hh
        · cases h
      · cases h
    · rename_i p k hi
      split at h
      · rename_i hh
        split at h
        · rename_i hn
          cases h
          exact .absent hi hh hn
        · cases h
      · rename_i f b hh
        split at h
        · rename_i he
          cases h
          exact .ended hi hh he
        · cases h
      · cases h
    · rename_i p k hi
      split at h
      · rename_i hn
        cases h
        exact .removed hi hn
      · cases h
    · rename_i a k _ hr _ hi
      obtain ⟨r, hl, h⟩ := Option.map_eq_some_iff.1 h
      cases h
      exact .call hi (look_step hl).1 (look_step hl).2 (by
        rintro p rfl
        exact hr p k rfl HEq.rfl) (by rintro p rfl; cases hl)
    · cases h
  | opn =>
    simp only [tickOne] at h
    split at h
    · rename_i p c k hi hh
      cases h
      exact .opened hi hh (by intro h; cases h)
    · cases h
  | wr n =>
    simp only [tickOne] at h
    split at h
    · rename_i p c k f off hi hh
      split at h
      · rename_i hn
        cases h
        exact .wrote hi hh n hn
      · cases h
    · cases h
  | look =>
    simp only [tickOne] at h
    split at h
    · rename_i p k hi hh
      obtain ⟨f, hf, h⟩ := Option.map_eq_some_iff.1 h
      cases h
      exact .looked hi hh hf
    · cases h
  | get n =>
    simp only [tickOne] at h
    split at h
    · rename_i p k f b hi hh
      cases h
      exact .got hi hh n
    · cases h

/-- Run programs by a schedule. Used in examples only. Proof device: models no code. -/
def tickRun (find : Bytes → Except GoErr Bytes) (exec : Bytes → Bytes → PArgs → Except GoErr Bytes) :
    List (Nat × Task) → Sys α → Option (List (Nat × RMove) × Sys α)
  | [], s => some ([], s)
  | (i, t) :: sch, s => (tickOne find exec s i t).bind fun x => (tickRun find exec sch x.2).map fun y => ((i, x.1) :: y.1, y.2)

theorem tickRun_ticks {find : Bytes → Except GoErr Bytes} {exec : Bytes → Bytes → PArgs → Except GoErr Bytes} {sch : List (Nat × Task)} :
    ∀ {s : Sys α} {y : List (Nat × RMove) × Sys α}, tickRun find exec sch s = some y → Ticks false s y.1 y.2 := by
  induction sch with
  | nil => intro s y h; cases h; exact .refl _
  | cons x sch ih =>
    intro s y h
    obtain ⟨i, t⟩ := x
    obtain ⟨x, hx, h⟩ := Option.bind_eq_some_iff.1 h
    obtain ⟨z, hz, h⟩ := Option.map_eq_some_iff.1 h
    cases h
    exact .step (tickOne_tick hx) (ih hz)

/-- A list with one plugin. Test data; models no code. -/
def listOne : NetConfList := { name := b!"net", cniVersion := b!"1.0.0", plugins := [plugB], bytes := b!"{}" }

/-- Two results. Test data; models no code. -/
def ansOne : Bytes := b!"{\"cniVersion\":\"1.0.0\",\"dns\":{\"domain\":\"d\",\"search\":[\"s\"]}}"

/-- Test data; models no code. -/
def ansTwo : Bytes := b!"{\"cniVersion\":\"1.0.0\",\"dns\":{\"domain\":\"e\",\"search\":[\"t\"]}}"

/-- A plugin whose result depends on the arguments. Test data; models no code. -/
def eitherOne (_p _i : Bytes) : PArgs → Except GoErr Bytes
  | .args a => .ok (if a.pluginArgs = [(b!"K", b!"V")] then ansOne else ansTwo)
  | .delegate _ => .ok ansOne

/-- One client adds an attachment twice, another one checks it. Test data; models no code. -/
def addTwice : List Client := [.session [.add cfg listOne rt, .add cfg listOne rtAgain], .session [.check cfg listOne rt]]

/-- What the plugins executed for client `i` answered. Observation in tests; models no code. -/
def answersTo (i : Nat) (l : List (Nat × Move)) : List (Option Bytes) := (callsBy i l).execs.map fun e => e.resp.toOption

theorem addTwice_proper : ∀ cl ∈ addTwice, cl.Proper := by
  have hn : PlainNames listOne.name rt := ⟨by decide +kernel, by decide +kernel, by decide +kernel⟩
  have hn' : PlainNames listOne.name rtAgain := ⟨by decide +kernel, by decide +kernel, by decide +kernel⟩
  simp only [addTwice, List.mem_cons, List.not_mem_nil, or_false]
  rintro cl (rfl | rfl)
  · simp only [Client.Proper, List.mem_cons, List.not_mem_nil, or_false]
    rintro op (rfl | rfl)
    · exact ⟨hn, (by intro kv h; cases h), rt_ok.sorted⟩
    · exact ⟨hn', (by intro kv h; cases h), rt_ok.sorted⟩
  · simp only [Client.Proper, List.mem_cons, List.not_mem_nil, or_false]
    rintro op rfl
    exact ⟨hn, (by intro kv h; cases h), rt_ok.sorted⟩

theorem runs_ticks {β : Type} {find : Bytes → Except GoErr Bytes} {exec : Bytes → Bytes → PArgs → Except GoErr Bytes} {clients : List Client}
    {sch : List (Nat × Task)} {f : List (Nat × RMove) → Sys Ended → β} {b : β}
    (h : (tickRun find exec sch (start clients blankDisk)).map (fun x => f x.1 x.2) = some b) :
    ∃ l s', Ticks false (start clients blankDisk) l s' ∧ f l s' = b := by
  obtain ⟨x, hx, rfl⟩ := Option.map_eq_some_iff.1 h
  exact ⟨_, _, tickRun_ticks hx, rfl⟩

/-- If a file is emptied and rewritten while it is being read, the theorems above do not hold: a CHECK that has read the beginning of the entry of the
first ADD goes on with the end of that of the second, and hands to the plugin a previous result that none has returned. -/
theorem c76_mixed_read : ∃ l s', Ticks false (start addTwice blankDisk) l s' ∧
    answersTo 0 (coarse l) = [some b!"{\"cniVersion\":\"1.0.0\",\"dns\":{\"domain\":\"d\",\"search\":[\"s\"]}}",
      some b!"{\"cniVersion\":\"1.0.0\",\"dns\":{\"domain\":\"e\",\"search\":[\"t\"]}}"] ∧
    executed 1 (coarse l) = [(b!"/bin/b",
      b!"{\"cniVersion\":\"1.0.0\",\"name\":\"net\",\"prevResult\":{\"cniVersion\":\"1.0.0\",\"dns\":{\"domain\":\"d\",\"search\":[\"t\"]}},\"type\":\"b\"}")] := by
  obtain ⟨l, s', h, he⟩ := runs_ticks (find := find) (exec := eitherOne) (clients := addTwice)
    (sch := [(0, .go), (0, .go), (0, .go), (0, .opn), (0, .wr 196), (0, .go), (1, .look), (1, .get 180), (0, .go), (0, .go), (0, .go), (0, .opn),
      (0, .wr 196), (0, .go), (1, .get 200), (1, .go), (1, .go), (1, .go)])
    (f := fun l _ => (answersTo 0 (coarse l), executed 1 (coarse l)))
    (b := ([some b!"{\"cniVersion\":\"1.0.0\",\"dns\":{\"domain\":\"d\",\"search\":[\"s\"]}}",
      some b!"{\"cniVersion\":\"1.0.0\",\"dns\":{\"domain\":\"e\",\"search\":[\"t\"]}}"], [(b!"/bin/b",
      b!"{\"cniVersion\":\"1.0.0\",\"name\":\"net\",\"prevResult\":{\"cniVersion\":\"1.0.0\",\"dns\":{\"domain\":\"d\",\"search\":[\"t\"]}},\"type\":\"b\"}")]))
    (by decide +kernel)
  exact ⟨l, s', h, (Prod.mk.inj he).1, (Prod.mk.inj he).2⟩

/-- An ADD and, concurrently, a CHECK and a DEL of the same attachment. Test data; models no code. -/
def addCheckDel : List Client := [.session [.add cfg listOne rt], .session [.check cfg listOne rt, .del cfg listOne rt]]

theorem addCheckDel_proper : ∀ cl ∈ addCheckDel, cl.Proper := by
  have hn : PlainNames listOne.name rt := ⟨by decide +kernel, by decide +kernel, by decide +kernel⟩
  simp only [addCheckDel, List.mem_cons, List.not_mem_nil, or_false]
  rintro cl (rfl | rfl)
  · simp only [Client.Proper, List.mem_cons, List.not_mem_nil, or_false]
    rintro op rfl
    exact ⟨hn, (by intro kv h; cases h), rt_ok.sorted⟩
  · simp only [Client.Proper, List.mem_cons, List.not_mem_nil, or_false]
    rintro op (rfl | rfl)
    · exact ⟨hn, (by intro kv h; cases h), rt_ok.sorted⟩
    · exact ⟨hn, (by intro kv h; cases h), rt_ok.sorted⟩

theorem addCheckDel_once : AddedOnce addCheckDel := by
  have key : ∀ {i m : Nat} {ops : List ApiOp} {op : ApiOp}, addCheckDel[i]? = some (.session ops) → ops[m]? = some op → op.added ≠ none →
      i = 0 ∧ m = 0 := by
    intro i m ops op hi hm ha
    match i, hi with
    | 0, hi =>
      cases hi
      match m, hm with
      | 0, _ => exact ⟨rfl, rfl⟩
    | 1, hi =>
      cases hi
      match m, hm with
      | 0, hm => cases hm; exact absurd rfl ha
      | 1, hm => cases hm; exact absurd rfl ha
  intro i j m n ops ops' op op' hi hj hm hn ha ha' _
  obtain ⟨rfl, rfl⟩ := key hi hm ha
  obtain ⟨rfl, rfl⟩ := key hj hn ha'
  exact ⟨rfl, rfl⟩

/-- The CHECK begins to read when half of the entry has been written, and ends when it is complete: it passes on the result of the ADD. The file is
removed in the end. -/
example : ∃ l s', Ticks true (start addCheckDel blankDisk) l s' ∧ executed 1 (coarse l) = [(b!"/bin/b",
      b!"{\"cniVersion\":\"1.0.0\",\"name\":\"net\",\"prevResult\":{\"cniVersion\":\"1.0.0\",\"dns\":{\"domain\":\"d\",\"search\":[\"s\"]}},\"type\":\"b\"}"),
      (b!"/bin/b",
      b!"{\"cniVersion\":\"1.0.0\",\"name\":\"net\",\"prevResult\":{\"cniVersion\":\"1.0.0\",\"dns\":{\"domain\":\"d\",\"search\":[\"s\"]}},\"type\":\"b\"}")] ∧
    s'.ps.map allOk = [true, true] ∧ s'.d.files key = none := by
  obtain ⟨l, s', h, he⟩ := runs_ticks (find := find) (exec := eitherOne) (clients := addCheckDel)
    (sch := [(0, .go), (0, .go), (0, .go), (0, .opn), (0, .wr 100), (1, .look), (1, .get 60), (0, .wr 96), (1, .get 100), (1, .get 100), (0, .go),
      (1, .go), (1, .go), (1, .go), (1, .look), (1, .get 200), (1, .go), (1, .go), (1, .go), (1, .go)])
    (f := fun l s' => (executed 1 (coarse l), s'.ps.map allOk, s'.d.files key))
    (b := ([(b!"/bin/b",
      b!"{\"cniVersion\":\"1.0.0\",\"name\":\"net\",\"prevResult\":{\"cniVersion\":\"1.0.0\",\"dns\":{\"domain\":\"d\",\"search\":[\"s\"]}},\"type\":\"b\"}"),
      (b!"/bin/b",
      b!"{\"cniVersion\":\"1.0.0\",\"name\":\"net\",\"prevResult\":{\"cniVersion\":\"1.0.0\",\"dns\":{\"domain\":\"d\",\"search\":[\"s\"]}},\"type\":\"b\"}")],
      [true, true], none)) (by decide +kernel)
  obtain ⟨e1, e2⟩ := Prod.mk.inj he
  obtain ⟨e2, e3⟩ := Prod.mk.inj e2
  exact ⟨l, s', c76_once _ addCheckDel_proper addCheckDel_once _ (fun _ => rfl) l s' h, e1, e2, e3⟩

/-- The beginning of the entry was read. Observation in tests; models no code. -/
def saw : Event → Bool
  | ⟨.readFile p, (r : Option Bytes)⟩ => decide (p = key ∧ r = some b!"{\"kind\"")
  | _ => false

/-- The CHECK reads the beginning while the rest has not been written. -/
example : ∃ l s', Ticks true (start addCheckDel blankDisk) l s' ∧ executed 1 (coarse l) = [] ∧ s'.d.files key = some b!"{\"kind\"" ∧
    (⟨.readFile key, some b!"{\"kind\""⟩ : Event) ∈ callsBy 1 (coarse l) := by
  obtain ⟨l, s', h, he⟩ := runs_ticks (find := find) (exec := eitherOne) (clients := addCheckDel)
    (sch := [(0, .go), (0, .go), (0, .go), (0, .opn), (0, .wr 7), (1, .look), (1, .get 60), (1, .go)])
    (f := fun l s' => (executed 1 (coarse l), s'.d.files key, (callsBy 1 (coarse l)).map saw))
    (b := ([], some b!"{\"kind\"", [true])) (by decide +kernel)
  obtain ⟨e1, e2⟩ := Prod.mk.inj he
  obtain ⟨e2, e3⟩ := Prod.mk.inj e2
  refine ⟨l, s', c76_once _ addCheckDel_proper addCheckDel_once _ (fun _ => rfl) l s' h, e1, e2, ?_⟩
  have hm : true ∈ (callsBy 1 (coarse l)).map saw := by
    rw [e3]
    exact List.mem_cons_self ..
  obtain ⟨e, he, hx⟩ := List.mem_map.1 hm
  obtain ⟨a, r⟩ := e
  cases a with
  | readFile p =>
    have : ∀ r : Option Bytes, saw ⟨.readFile p, r⟩ = true → p = key ∧ r = some b!"{\"kind\"" := fun r h => of_decide_eq_true h
    obtain ⟨h1, h2⟩ := this r hx
    subst h1
    cases h2
    exact he
  | _ => cases hx

/-- An ADD and, concurrently, a CHECK of the same attachment. Test data; models no code. -/
def addCheck : List Client := [.session [.add cfg listOne rt], .session [.check cfg listOne rt]]

/-- Both end; nobody may remove the file, which is what the ADD has stored. -/
example : (∀ cl ∈ addCheck, ¬ MayRemove key cl) ∧ ∃ l s', Ticks true (start addCheck blankDisk) l s' ∧ s'.ps.map allOk = [true, true] ∧
    s'.d.files key = some b!"{\"kind\":\"cniCacheV1\",\"containerId\":\"c1\",\"config\":\"e30=\",\"ifName\":\"eth0\",\"networkName\":\"net\",\"netns\":\"/ns\",\"cniArgs\":[[\"K\",\"V\"]],\"result\":{\"cniVersion\":\"1.0.0\",\"dns\":{\"domain\":\"d\",\"search\":[\"s\"]}}}" := by
  have hn : PlainNames listOne.name rt := ⟨by decide +kernel, by decide +kernel, by decide +kernel⟩
  have hp : ∀ cl ∈ addCheck, cl.Proper := by
    simp only [addCheck, List.mem_cons, List.not_mem_nil, or_false]
    rintro cl (rfl | rfl) <;>
    · simp only [Client.Proper, List.mem_cons, List.not_mem_nil, or_false]
      rintro op rfl
      exact ⟨hn, (by intro kv h; cases h), rt_ok.sorted⟩
  have hone : AddedOnce addCheck := by
    have key : ∀ {i m : Nat} {ops : List ApiOp} {op : ApiOp}, addCheck[i]? = some (.session ops) → ops[m]? = some op → op.added ≠ none →
        i = 0 ∧ m = 0 := by
      intro i m ops op hi hm ha
      match i, hi with
      | 0, hi =>
        cases hi
        match m, hm with
        | 0, _ => exact ⟨rfl, rfl⟩
      | 1, hi =>
        cases hi
        match m, hm with
        | 0, hm => cases hm; exact absurd rfl ha
    intro i j m n ops ops' op op' hi hj hm hn ha ha' _
    obtain ⟨rfl, rfl⟩ := key hi hm ha
    obtain ⟨rfl, rfl⟩ := key hj hn ha'
    exact ⟨rfl, rfl⟩
  refine ⟨?_, ?_⟩
  · simp only [addCheck, List.mem_cons, List.not_mem_nil, or_false]
    rintro cl (rfl | rfl) ⟨op, ho, hd, -⟩ <;>
    · simp only [List.mem_cons, List.not_mem_nil, or_false] at ho
      subst ho
      cases hd
  · obtain ⟨l, s', h, he⟩ := runs_ticks (find := find) (exec := eitherOne) (clients := addCheck)
      (sch := [(0, .go), (0, .go), (0, .go), (0, .opn), (0, .wr 100), (1, .look), (1, .get 60), (0, .wr 96), (1, .get 100), (1, .get 100), (0, .go),
        (1, .go), (1, .go), (1, .go)])
      (f := fun _ s' => (s'.ps.map allOk, s'.d.files key))
      (b := ([true, true], some b!"{\"kind\":\"cniCacheV1\",\"containerId\":\"c1\",\"config\":\"e30=\",\"ifName\":\"eth0\",\"networkName\":\"net\",\"netns\":\"/ns\",\"cniArgs\":[[\"K\",\"V\"]],\"result\":{\"cniVersion\":\"1.0.0\",\"dns\":{\"domain\":\"d\",\"search\":[\"s\"]}}}"))
      (by decide +kernel)
    obtain ⟨e1, e2⟩ := Prod.mk.inj he
    exact ⟨l, s', c76_once _ hp hone _ (fun _ => rfl) l s' h, e1, e2⟩

end Example

end Verif
