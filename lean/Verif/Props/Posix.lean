/- C73: clients whose writes are opening, writing and closing a file behave like those of the coarser model of C70 to C72. -/
import Verif.Spec.Posix
import Verif.Props.Collected

namespace Verif
open Spec

variable {α : Type}

/-- How a client in the fine model corresponds to one in the coarse model: program, open file, program in the coarse model, and the
calls it has already made there. Proof device: models no code. -/
inductive Rel1 (d : Disk) : Option (Prog α) → Option Fd → Option (Prog α) → Trace → Prop
  | idle (x : Option (Prog α)) : Rel1 d x none x []
  | attached {p c : Bytes} {k : Bool → Prog α} {fd : Fd} (hn : d.name p = some fd.file) (hd : d.data fd.file = c.take fd.off)
      (ho : fd.off ≤ c.length) : Rel1 d (some (.op (.writeFile p c) k)) (some fd) (some (.op (.writeFile p c) k)) []
  | orphan {p c : Bytes} {k : Bool → Prog α} {fd : Fd} (hn : ∀ q, d.name q ≠ some fd.file) :
      Rel1 d (some (.op (.writeFile p c) k)) (some fd) (some (k true)) [⟨.writeFile p c, true⟩]

/-- The same for all clients. Proof device: models no code. -/
structure Rel (ps : List (Prog α)) (fds : Nat → Option Fd) (d : Disk) (qs : List (Prog α)) (ah : Nat → Trace) : Prop where
  ok : d.OK
  old : ∀ i fd, fds i = some fd → fd.file < d.next
  own : ∀ i j fd fd', fds i = some fd → fds j = some fd' → fd.file = fd'.file → i = j
  each : ∀ i, Rel1 d ps[i]? (fds i) qs[i]? (ah i)

theorem Rel1.keep {d d' : Disk} {x : Option (Prog α)} {f : Option Fd} {y : Option (Prog α)} {t : Trace} (h : Rel1 d x f y t)
    (hs : ∀ fd, f = some fd → (∀ p, d'.name p = some fd.file ↔ d.name p = some fd.file) ∧ d'.data fd.file = d.data fd.file) : Rel1 d' x f y t := by
  cases h with
  | idle => exact .idle _
  | @attached p c k fd hn hd ho =>
    obtain ⟨h1, h2⟩ := hs fd rfl
    exact .attached ((h1 p).2 hn) (h2.trans hd) ho
  | @orphan p c k fd hn =>
    obtain ⟨h1, -⟩ := hs fd rfl
    exact .orphan fun q hq => hn q ((h1 q).1 hq)

theorem opened_some {d : Disk} {p : Bytes} {n : Nat} (h : d.name p = some n) :
    d.opened p = (n, { d with data := fun m => if m = n then [] else d.data m }) := by
  simp only [Disk.opened, h]

theorem opened_none {d : Disk} {p : Bytes} (h : d.name p = none) :
    d.opened p = (d.next, { name := fun q => if q = p then some d.next else d.name q,
                            data := fun m => if m = d.next then [] else d.data m, next := d.next + 1 }) := by
  simp only [Disk.opened, h]

theorem unlinked_files (d : Disk) (p : Bytes) : (d.unlinked p).files = d.files.set p none := by
  funext q
  simp only [Disk.files, Disk.unlinked, FS.set]
  split <;> rfl

theorem opened_files {d : Disk} (ok : d.OK) (p : Bytes) : (d.opened p).2.files = d.files.set p (some []) := by
  funext q
  cases h : d.name p with
  | some n =>
    rw [opened_some h]
    simp only [Disk.files, FS.set]
    by_cases hq : q = p
    · subst hq
      simp [h]
    · rw [if_neg hq]
      cases hn : d.name q with
      | none => rfl
      | some m =>
        have : m ≠ n := by
          rintro rfl
          exact hq (ok.one _ _ _ hn h)
        simp [this]
  | none =>
    rw [opened_none h]
    simp only [Disk.files, FS.set]
    by_cases hq : q = p
    · simp [hq]
    · rw [if_neg hq, if_neg hq]
      cases hn : d.name q with
      | none => rfl
      | some m =>
        have : m ≠ d.next := by
          have := ok.old _ _ hn
          omega
        simp [this]

theorem written_files {d : Disk} (ok : d.OK) {p : Bytes} {n off : Nat} {s : Bytes} (h : d.name p = some n) :
    (d.written n off s).files = d.files.set p (some (overlay (d.data n) off s)) := by
  funext q
  simp only [Disk.files, Disk.written, FS.set]
  by_cases hq : q = p
  · subst hq
    simp [h]
  · rw [if_neg hq]
    cases hn : d.name q with
    | none => rfl
    | some m =>
      have : m ≠ n := by
        rintro rfl
        exact hq (ok.one _ _ _ hn h)
      simp [this]

theorem written_orphan {d : Disk} {n off : Nat} {s : Bytes} (h : ∀ q, d.name q ≠ some n) : (d.written n off s).files = d.files := by
  funext q
  simp only [Disk.files, Disk.written]
  cases hn : d.name q with
  | none => rfl
  | some m =>
    have : m ≠ n := by
      rintro rfl
      exact h q hn
    simp [this]

theorem overlay_take {c : Bytes} {off n : Nat} (h : off + n ≤ c.length) : overlay (c.take off) off ((c.drop off).take n) = c.take (off + n) := by
  unfold overlay
  have h1 : (c.take off).length = off := by rw [List.length_take]; omega
  have h2 : (c.take off).drop (off + ((c.drop off).take n).length) = [] := List.drop_eq_nil_of_le (by rw [h1]; omega)
  rw [h1, h2, List.take_take, Nat.min_self, Nat.sub_self, List.replicate_zero, List.append_nil, List.append_nil, List.take_add]

theorem opened_ok {d : Disk} (ok : d.OK) (p : Bytes) : (d.opened p).2.OK := by
  cases h : d.name p with
  | some n =>
    rw [opened_some h]
    exact ⟨ok.one, ok.old⟩
  | none =>
    rw [opened_none h]
    constructor
    · intro q q' n h1 h2
      simp only at h1 h2
      split at h1 <;> split at h2
      · simp_all
      · cases h1
        exact absurd (ok.old _ _ h2) (Nat.lt_irrefl _)
      · cases h2
        exact absurd (ok.old _ _ h1) (Nat.lt_irrefl _)
      · exact ok.one _ _ _ h1 h2
    · intro q n h1
      simp only at h1 ⊢
      split at h1
      · cases h1
        omega
      · have := ok.old _ _ h1
        omega

theorem unlinked_ok {d : Disk} (ok : d.OK) (p : Bytes) : (d.unlinked p).OK := by
  constructor
  · intro q q' n h1 h2
    simp only [Disk.unlinked] at h1 h2
    split at h1 <;> split at h2 <;> try contradiction
    exact ok.one _ _ _ h1 h2
  · intro q n h1
    simp only [Disk.unlinked] at h1 ⊢
    split at h1 <;> try contradiction
    exact ok.old _ _ h1

theorem answeredTo_call (i j : Nat) (e : Event) (l : List (Nat × FMove)) :
    answeredTo i ((j, .call e) :: l) = if j = i then e :: answeredTo i l else answeredTo i l := by
  unfold answeredTo
  by_cases h : j = i <;> simp [h]

theorem answeredTo_opened (i j : Nat) (l : List (Nat × FMove)) : answeredTo i ((j, .opened) :: l) = answeredTo i l := by
  unfold answeredTo
  by_cases h : j = i <;> simp [h]

theorem answeredTo_wrote (i j n : Nat) (l : List (Nat × FMove)) : answeredTo i ((j, .wrote n) :: l) = answeredTo i l := by
  unfold answeredTo
  by_cases h : j = i <;> simp [h]

theorem callsBy_call (i j : Nat) (e : Event) (l : List (Nat × Move)) :
    callsBy i ((j, .call e) :: l) = if j = i then e :: callsBy i l else callsBy i l := by
  unfold callsBy
  by_cases h : j = i <;> simp [h, Move.event?]

theorem callsBy_part (i j n : Nat) (l : List (Nat × Move)) : callsBy i ((j, .part n) :: l) = callsBy i l := by
  unfold callsBy
  by_cases h : j = i <;> simp [h, Move.event?]

/-- A client that is not writing is the same in both models. -/
theorem Rel1.notWriting {d : Disk} {a : Act} {k : a.Resp → Prog α} {f : Option Fd} {y : Option (Prog α)} {t : Trace}
    (h : Rel1 d (some (.op a k)) f y t) (hw : ∀ p c, a ≠ .writeFile p c) : f = none ∧ y = some (.op a k) ∧ t = [] := by
  generalize hx : some (Prog.op a k) = x at h
  cases h with
  | idle => exact ⟨rfl, rfl, rfl⟩
  | attached => cases hx; exact absurd rfl (hw _ _)
  | orphan => cases hx; exact absurd rfl (hw _ _)

theorem fine_inter {ps ps' : List (Prog α)} {fds fds' : Nat → Option Fd} {d d' : Disk} {l : List (Nat × FMove)}
    (h : Fine true ps fds d l ps' fds' d') : ∀ {qs : List (Prog α)} {ah : Nat → Trace}, Rel ps fds d qs ah →
    ∃ l' qs' ah', Inter false qs d.files l' qs' d'.files ∧ Rel ps' fds' d' qs' ah' ∧ ∀ i, ah i ++ callsBy i l' = answeredTo i l ++ ah' i := by
  induction h with
  | refl ps fds d =>
    intro qs ah R
    exact ⟨[], qs, ah, .refl _ _, R, fun i => by simp [callsBy, answeredTo]⟩
  | @call ps ps' fds fds' d d' i a k r l hi hs hw _ ih =>
    intro qs ah R
    have h1 := R.each i
    rw [hi] at h1
    obtain ⟨hf, hq, ha⟩ := h1.notWriting hw
    have R' : Rel (ps.set i (k r)) fds d (qs.set i (k r)) ah := by
      refine ⟨R.ok, R.old, R.own, fun j => ?_⟩
      rw [set_getElem? ps i j _ hi, set_getElem? qs i j _ hq]
      by_cases hij : i = j
      · subst hij
        rw [if_pos rfl, if_pos rfl, hf, ha]
        exact .idle _
      · rw [if_neg hij, if_neg hij]
        exact R.each j
    obtain ⟨l', qs', ah', hI, hR, hc⟩ := ih R'
    refine ⟨(i, .call ⟨a, r⟩) :: l', qs', ah', .call hq hs hI, hR, fun j => ?_⟩
    rw [callsBy_call, answeredTo_call]
    have := hc j
    by_cases hij : i = j
    · subst hij
      rw [ha, List.nil_append] at this
      rw [if_pos rfl, if_pos rfl, ha, List.nil_append, this, List.cons_append]
    · rw [if_neg hij, if_neg hij]
      exact this
  | @removed ps ps' fds fds' d d' i p k l hi hn _ ih =>
    intro qs ah R
    have h1 := R.each i
    rw [hi] at h1
    obtain ⟨hf, hq, ha⟩ := h1.notWriting (by intro p c h; cases h)
    cases hd : d.name p with
    | none => exact absurd hd hn
    | some n =>
    have hfile : d.files p ≠ none := by simp [Disk.files, hd]
    by_cases hat : ∃ j fd, fds j = some fd ∧ fd.file = n
    · obtain ⟨j, fd, hj, rfl⟩ := hat
      have hij : i ≠ j := by
        rintro rfl
        rw [hf] at hj
        cases hj
      have h2 := R.each j
      rw [hj] at h2
      generalize hx : ps[j]? = x at h2
      generalize hy : qs[j]? = y at h2
      generalize ht : ah j = t at h2
      cases h2 with
      | @orphan p' c k' _ ho => exact absurd hd (ho p)
      | @attached p' c k' _ hn' hdat hle =>
        have hp : p' = p := R.ok.one _ _ _ hn' hd
        subst hp
        have R' : Rel (ps.set i (k true)) fds (d.unlinked p') ((qs.set j (k' true)).set i (k true))
            (fun m => if m = j then [⟨.writeFile p' c, true⟩] else ah m) := by
          refine ⟨unlinked_ok R.ok p', R.old, R.own, fun m => ?_⟩
          have hq2 : (qs.set j (k' true))[i]? = some (.op (.remove p') k) := by
            rw [set_getElem? qs j i _ hy, if_neg (fun h => hij h.symm), hq]
          rw [set_getElem? ps i m _ hi, set_getElem? _ i m _ hq2, set_getElem? qs j m _ hy]
          by_cases him : i = m
          · subst him
            rw [if_pos rfl, if_pos rfl, if_neg hij, hf, ha]
            exact .idle _
          · rw [if_neg him, if_neg him]
            by_cases hjm : j = m
            · subst hjm
              rw [if_pos rfl, if_pos rfl, hx, hj]
              refine .orphan fun q hq => ?_
              simp only [Disk.unlinked] at hq
              split at hq
              · cases hq
              · next hne => exact hne (R.ok.one _ _ _ hq hd)
            · rw [if_neg hjm, if_neg (fun h => hjm h.symm)]
              refine (R.each m).keep fun fd' hm => ⟨fun q => ?_, rfl⟩
              simp only [Disk.unlinked]
              split
              · next he =>
                subst he
                refine ⟨(by intro h; cases h), fun h => ?_⟩
                rw [hd] at h
                exact absurd (R.own _ _ _ _ hj hm (Option.some.inj h)) hjm
              · exact Iff.rfl
        obtain ⟨l', qs', ah', hI, hR, hc⟩ := ih R'
        refine ⟨(j, .call ⟨.writeFile p' c, true⟩) :: (i, .call ⟨.remove p', true⟩) :: l', qs', ah',
          .call hy (.writeFile _ _ _) (.call (a := .remove p') (k := k) (fs1 := (d.files.set p' (some c)).set p' none) ?_ (.remove _ _ ?_) ?_), hR, fun m => ?_⟩
        · rw [set_getElem? qs j i _ hy, if_neg (fun h => hij h.symm), hq]
        · simp [FS.set]
        · have : (d.files.set p' (some c)).set p' none = (d.unlinked p').files := by
            rw [unlinked_files]
            funext q
            simp only [FS.set]
            split <;> rfl
          rw [this]
          exact hI
        · rw [callsBy_call, callsBy_call, answeredTo_call]
          have := hc m
          by_cases him : i = m
          · subst him
            rw [if_neg hij, ha, List.nil_append] at this
            rw [if_neg (fun h => hij h.symm), if_pos rfl, if_pos rfl, ha, List.nil_append, this, List.cons_append]
          · rw [if_neg him, if_neg him]
            by_cases hjm : j = m
            · subst hjm
              rw [if_pos rfl] at this ⊢
              rw [ht]
              exact this
            · rw [if_neg (fun h => hjm h.symm)] at this
              rw [if_neg hjm]
              exact this
    · have R' : Rel (ps.set i (k true)) fds (d.unlinked p) (qs.set i (k true)) ah := by
        refine ⟨unlinked_ok R.ok p, R.old, R.own, fun j => ?_⟩
        rw [set_getElem? ps i j _ hi, set_getElem? qs i j _ hq]
        by_cases hij : i = j
        · subst hij
          rw [if_pos rfl, if_pos rfl, hf, ha]
          exact .idle _
        · rw [if_neg hij, if_neg hij]
          refine (R.each j).keep fun fd' hm => ⟨fun q => ?_, rfl⟩
          simp only [Disk.unlinked]
          split
          · next he =>
            subst he
            refine ⟨(by intro h; cases h), fun h => ?_⟩
            rw [hd] at h
            exact absurd ⟨j, fd', hm, (Option.some.inj h).symm⟩ hat
          · exact Iff.rfl
      obtain ⟨l', qs', ah', hI, hR, hc⟩ := ih R'
      rw [unlinked_files] at hI
      refine ⟨(i, .call ⟨.remove p, true⟩) :: l', qs', ah', .call hq (.remove _ _ hfile) hI, hR, fun j => ?_⟩
      rw [callsBy_call, answeredTo_call]
      have := hc j
      by_cases hij : i = j
      · subst hij
        rw [ha, List.nil_append] at this
        rw [if_pos rfl, if_pos rfl, ha, List.nil_append, this, List.cons_append]
      · rw [if_neg hij, if_neg hij]
        exact this
  | @opened ps ps' fds fds' d d' i p c k l hi hf he _ ih =>
    intro qs ah R
    have hidle : qs[i]? = some (.op (.writeFile p c) k) ∧ ah i = [] := by
      have h1 := R.each i
      rw [hi, hf] at h1
      generalize hy : qs[i]? = y at h1
      generalize ht : ah i = t at h1
      cases h1
      exact ⟨rfl, rfl⟩
    obtain ⟨hq, ha⟩ := hidle
    have hname : (d.opened p).2.name p = some (d.opened p).1 ∧ (d.opened p).2.data (d.opened p).1 = [] ∧ (d.opened p).1 < (d.opened p).2.next ∧
        d.next ≤ (d.opened p).2.next ∧
        (∀ j fd, fds j = some fd → fd.file ≠ (d.opened p).1 ∧ (∀ q, (d.opened p).2.name q = some fd.file ↔ d.name q = some fd.file) ∧
          (d.opened p).2.data fd.file = d.data fd.file) := by
      cases h : d.name p with
      | some n =>
        rw [opened_some h]
        refine ⟨h, by simp, R.ok.old _ _ h, Nat.le_refl _, fun j fd hj => ?_⟩
        have hne : fd.file ≠ n := by
          intro hh
          refine he rfl j fd hj ?_
          rw [h, hh]
        exact ⟨hne, fun q => Iff.rfl, by simp [hne]⟩
      | none =>
        rw [opened_none h]
        refine ⟨by simp, by simp, by simp, by simp, fun j fd hj => ?_⟩
        have hne : fd.file ≠ d.next := by
          have := R.old j fd hj
          omega
        refine ⟨hne, fun q => ?_, by simp [hne]⟩
        simp only
        split
        · next hh =>
          subst hh
          rw [h]
          refine ⟨fun hh => absurd (Option.some.inj hh).symm hne, by intro h; cases h⟩
        · exact Iff.rfl
    obtain ⟨h1, h2, h3, h4, h5⟩ := hname
    have R' : Rel ps (fun j => if j = i then some ⟨(d.opened p).1, 0⟩ else fds j) (d.opened p).2 qs ah := by
      refine ⟨opened_ok R.ok p, fun j fd hj => ?_, fun j j' fd fd' hj hj' hff => ?_, fun j => ?_⟩
      · split at hj
        · cases hj
          exact h3
        · exact Nat.lt_of_lt_of_le (R.old j fd hj) h4
      · split at hj <;> split at hj'
        · simp_all
        · cases hj
          exact absurd hff.symm (h5 _ _ hj').1
        · cases hj'
          exact absurd hff (h5 _ _ hj).1
        · exact R.own _ _ _ _ hj hj' hff
      · by_cases hji : j = i
        · subst hji
          rw [if_pos rfl, hi, hq, ha]
          exact .attached h1 (by rw [h2]; rfl) (Nat.zero_le _)
        · rw [if_neg hji]
          exact (R.each j).keep fun fd hj => (h5 j fd hj).2
    obtain ⟨l', qs', ah', hI, hR, hc⟩ := ih R'
    rw [opened_files R.ok] at hI
    refine ⟨(i, .part 0) :: l', qs', ah', .part hq 0 hI, hR, fun j => ?_⟩
    rw [callsBy_part, answeredTo_opened]
    exact hc j
  | @wrote ps ps' fds fds' d d' i p c k fd l hi hf n hn _ ih =>
    intro qs ah R
    have keepj : ∀ j, j ≠ i → Rel1 (d.written fd.file fd.off ((c.drop fd.off).take n)) ps[j]? (fds j) qs[j]? (ah j) := fun j hji =>
      (R.each j).keep fun fd' hj => by
        have hne : fd'.file ≠ fd.file := fun h => hji (R.own _ _ _ _ hj hf h)
        exact ⟨fun q => Iff.rfl, by simp [Disk.written, hne]⟩
    have mk : Rel1 (d.written fd.file fd.off ((c.drop fd.off).take n)) ps[i]? (some ⟨fd.file, fd.off + n⟩) qs[i]? (ah i) →
        Rel ps (fun j => if j = i then some ⟨fd.file, fd.off + n⟩ else fds j) (d.written fd.file fd.off ((c.drop fd.off).take n)) qs ah := by
      intro hrel
      refine ⟨⟨R.ok.one, R.ok.old⟩, fun j fd' hj => ?_, fun j j' fd1 fd2 hj hj' hff => ?_, fun j => ?_⟩
      · split at hj
        · cases hj
          exact R.old _ fd hf
        · exact R.old _ _ hj
      · split at hj <;> split at hj'
        · simp_all
        · next h1 h2 =>
          cases hj
          exact h1.trans (R.own _ _ _ _ hf hj' hff)
        · next h1 h2 =>
          cases hj'
          exact (R.own _ _ _ _ hj hf hff).trans h2.symm
        · exact R.own _ _ _ _ hj hj' hff
      · by_cases hji : j = i
        · subst hji
          rw [if_pos rfl]
          exact hrel
        · rw [if_neg hji]
          exact keepj j hji
    have h1 := R.each i
    rw [hi, hf] at h1
    generalize hy : qs[i]? = y at h1
    generalize ht : ah i = t at h1
    cases h1 with
    | attached hname hdat hle =>
      have hover : overlay (d.data fd.file) fd.off ((c.drop fd.off).take n) = c.take (fd.off + n) := by rw [hdat, overlay_take hn]
      obtain ⟨l', qs', ah', hI, hR, hc⟩ := ih (mk (by
        rw [hi, hy, ht]
        exact .attached hname (by simpa [Disk.written] using hover) hn))
      rw [written_files R.ok hname, hover] at hI
      refine ⟨(i, .part (fd.off + n)) :: l', qs', ah', .part hy _ hI, hR, fun j => ?_⟩
      rw [callsBy_part, answeredTo_wrote]
      exact hc j
    | orphan horph =>
      obtain ⟨l', qs', ah', hI, hR, hc⟩ := ih (mk (by
        rw [hi, hy, ht]
        exact .orphan horph))
      rw [written_orphan horph] at hI
      refine ⟨l', qs', ah', hI, hR, fun j => ?_⟩
      rw [answeredTo_wrote]
      exact hc j
  | @closed ps ps' fds fds' d d' i p c k fd l hi hf ho _ ih =>
    intro qs ah R
    have mk : ∀ {qs' : List (Prog α)} {ah' : Nat → Trace}, qs'[i]? = some (k true) → ah' i = [] → (∀ j, j ≠ i → qs'[j]? = qs[j]? ∧ ah' j = ah j) →
        Rel (ps.set i (k true)) (fun j => if j = i then none else fds j) d qs' ah' := by
      intro qs' ah' h1 h2 h3
      refine ⟨R.ok, fun j fd' hj => ?_, fun j j' fd1 fd2 hj hj' hff => ?_, fun j => ?_⟩
      · split at hj
        · cases hj
        · exact R.old _ _ hj
      · split at hj <;> split at hj' <;> try contradiction
        exact R.own _ _ _ _ hj hj' hff
      · rw [set_getElem? ps i j _ hi]
        by_cases hji : j = i
        · subst hji
          rw [if_pos rfl, if_pos rfl, h1, h2]
          exact .idle _
        · rw [if_neg (fun h => hji h.symm), if_neg hji, (h3 j hji).1, (h3 j hji).2]
          exact R.each j
    have h1 := R.each i
    rw [hi, hf] at h1
    generalize hy : qs[i]? = y at h1
    generalize ht : ah i = t at h1
    cases h1 with
    | attached hname hdat hle =>
      obtain ⟨l', qs', ah', hI, hR, hc⟩ := ih (mk (qs' := qs.set i (k true)) (ah' := ah) (by rw [set_getElem? qs i i _ hy, if_pos rfl]) ht
        (fun j hji => ⟨by rw [set_getElem? qs i j _ hy, if_neg (fun h => hji h.symm)], rfl⟩))
      refine ⟨(i, .call ⟨.writeFile p c, true⟩) :: l', qs', ah', .call hy (.writeFile _ _ _) ?_, hR, fun j => ?_⟩
      · have : d.files.set p (some c) = d.files := by
          funext q
          simp only [FS.set]
          split
          · next h =>
            subst h
            rw [ho, List.take_length] at hdat
            simp [Disk.files, hname, hdat]
          · rfl
        rw [this]
        exact hI
      · rw [callsBy_call, answeredTo_call]
        have := hc j
        by_cases hij : i = j
        · subst hij
          rw [ht, List.nil_append] at this
          rw [if_pos rfl, if_pos rfl, ht, List.nil_append, this, List.cons_append]
        · rw [if_neg hij, if_neg hij]
          exact this
    | orphan horph =>
      obtain ⟨l', qs', ah', hI, hR, hc⟩ := ih (mk (qs' := qs) (ah' := fun m => if m = i then [] else ah m) hy (if_pos rfl)
        (fun j hji => ⟨rfl, if_neg hji⟩))
      refine ⟨l', qs', ah', hI, hR, fun j => ?_⟩
      rw [answeredTo_call]
      have := hc j
      by_cases hij : i = j
      · subst hij
        rw [if_pos rfl, List.nil_append] at this
        rw [if_pos rfl, ht, this]
        rfl
      · rw [if_neg (fun h => hij h.symm)] at this
        rw [if_neg hij]
        exact this

theorem rel_start {d : Disk} (ok : d.OK) (ps : List (Prog α)) : Rel ps (fun _ => none) d ps (fun _ => []) :=
  ⟨ok, (by intro i fd h; cases h), (by intro i j fd fd' h; cases h), fun _ => .idle _⟩

/-- What happens with files opened, written and closed, no two clients having a file open for writing at the same time, could also
have happened with each write done in one step, apart from parts of it being seen earlier: with the same calls and answers, and with
the same files afterwards. Clients that are not just writing are in the same state. -/
theorem c73_refine {ps ps' : List (Prog α)} {d d' : Disk} {fds' : Nat → Option Fd} {l : List (Nat × FMove)} (ok : d.OK)
    (h : Fine true ps (fun _ => none) d l ps' fds' d') :
    ∃ l' qs', Inter false ps d.files l' qs' d'.files ∧ SameCalls l l' ∧
      ∀ i, fds' i = none → qs'[i]? = ps'[i]? ∧ callsBy i l' = answeredTo i l := by
  obtain ⟨l', qs', ah', hI, hR, hc⟩ := fine_inter h (rel_start ok ps)
  refine ⟨l', qs', hI, fun i => ?_, fun i hi => ?_⟩
  · have h1 := hR.each i
    have h2 := hc i
    rw [List.nil_append] at h2
    generalize ah' i = t at h1 h2
    generalize ps'[i]? = x at h1
    generalize fds' i = f at h1
    generalize qs'[i]? = y at h1
    cases h1 with
    | idle => exact .inl (by rw [h2, List.append_nil])
    | attached => exact .inl (by rw [h2, List.append_nil])
    | @orphan p c => exact .inr ⟨p, c, h2⟩
  · have h1 := hR.each i
    have h2 := hc i
    rw [hi] at h1
    rw [List.nil_append] at h2
    generalize ah' i = t at h1 h2
    generalize ps'[i]? = x at h1
    generalize qs'[i]? = y at h1
    cases h1
    exact ⟨rfl, by rw [h2, List.append_nil]⟩

/-- Without removal of a file that is being written, or once they have ended, nothing is counted early. -/
theorem fine_open {ps ps' : List (Prog α)} {d d' : Disk} {fds' : Nat → Option Fd} {l : List (Nat × FMove)} (ok : d.OK)
    (h : Fine true ps (fun _ => none) d l ps' fds' d') {i : Nat} {fd : Fd} (hf : fds' i = some fd) :
    ∃ p c, ∃ k : Bool → Prog α, ps'[i]? = some (.op (.writeFile p c) k) := by
  obtain ⟨l', qs', ah', hI, hR, hc⟩ := fine_inter h (rel_start ok ps)
  have h1 := hR.each i
  rw [hf] at h1
  generalize ah' i = t at h1
  generalize ps'[i]? = x at h1
  generalize qs'[i]? = y at h1
  cases h1 with
  | attached => exact ⟨_, _, _, rfl⟩
  | orphan => exact ⟨_, _, _, rfl⟩

/-- The run up to a call. -/
theorem fine_before {excl : Bool} {i : Nat} {e : Event} {l2 : List (Nat × FMove)} {l : List (Nat × FMove)} :
    ∀ {ps ps' : List (Prog α)} {fds fds' : Nat → Option Fd} {d d' : Disk}, Fine excl ps fds d (l ++ (i, .call e) :: l2) ps' fds' d' →
    ∃ mid fds1 d1, Fine excl ps fds d l mid fds1 d1 ∧ Fine excl mid fds1 d1 ((i, .call e) :: l2) ps' fds' d' := by
  induction l with
  | nil =>
    intro ps ps' fds fds' d d' h
    exact ⟨_, _, _, .refl _ _ _, h⟩
  | cons m l ih =>
    intro ps ps' fds fds' d d' h
    cases h with
    | call hi hs hw h => obtain ⟨mid, fds1, d1, h1, h2⟩ := ih h; exact ⟨mid, fds1, d1, .call hi hs hw h1, h2⟩
    | removed hi hn h => obtain ⟨mid, fds1, d1, h1, h2⟩ := ih h; exact ⟨mid, fds1, d1, .removed hi hn h1, h2⟩
    | opened hi hf he h => obtain ⟨mid, fds1, d1, h1, h2⟩ := ih h; exact ⟨mid, fds1, d1, .opened hi hf he h1, h2⟩
    | wrote hi hf n hn h => obtain ⟨mid, fds1, d1, h1, h2⟩ := ih h; exact ⟨mid, fds1, d1, .wrote hi hf n hn h1, h2⟩
    | closed hi hf ho h => obtain ⟨mid, fds1, d1, h1, h2⟩ := ih h; exact ⟨mid, fds1, d1, .closed hi hf ho h1, h2⟩

theorem inter_snoc {ps ps' : List (Prog α)} {fs fs' fs2 : FS} {l : List (Nat × Move)} {i : Nat} {a : Act} {k : a.Resp → Prog α} {r : a.Resp}
    {flt : Bool} (h : Inter flt ps fs l ps' fs') (hi : ps'[i]? = some (.op a k)) (hs : Step flt fs' a r fs2) :
    Inter flt ps fs (l ++ (i, .call ⟨a, r⟩) :: []) (ps'.set i (k r)) fs2 := by
  induction h with
  | refl => exact .call hi hs (.refl _ _)
  | call h1 h2 _ ih => exact .call h1 h2 (ih hi hs)
  | part h1 n _ ih => exact .part h1 n (ih hi hs)

/-- The coarse run up to the execution of a plugin. -/
theorem fine_exec {ps ps' : List (Prog α)} {d d' : Disk} {fds' : Nat → Option Fd} {l l2 : List (Nat × FMove)} (ok : d.OK) {i : Nat}
    {path stdin : Bytes} {args : PArgs} {resp : Except GoErr Bytes}
    (h : Fine true ps (fun _ => none) d (l ++ (i, .call ⟨.exec path stdin args, resp⟩) :: l2) ps' fds' d') :
    ∃ l' qs fs, Inter false ps d.files (l' ++ (i, .call ⟨.exec path stdin args, resp⟩) :: []) qs fs ∧ SameCalls l l' ∧
      callsBy i l' = answeredTo i l := by
  obtain ⟨mid, fds1, d1, h1, h2⟩ := fine_before h
  have hi : ∃ k, mid[i]? = some (.op (.exec path stdin args) k) := by
    cases h2 with
    | call hi => exact ⟨_, hi⟩
  obtain ⟨k, hi⟩ := hi
  obtain ⟨l', qs', hI, hS, hE⟩ := c73_refine ok h1
  have hf : fds1 i = none := by
    cases hf : fds1 i with
    | none => rfl
    | some fd =>
      obtain ⟨p, c, k', hk⟩ := fine_open ok h1 hf
      rw [hi] at hk
      cases hk
  obtain ⟨hq, hc⟩ := hE i hf
  rw [hi] at hq
  exact ⟨l', _, _, inter_snoc hI hq (.exec ..), hS, hc⟩

/-- When clients run concurrently on an empty cache, files being opened, written and closed, and no two clients have a file open for
writing at the same time: what plugins are executed with (see C70). `l'` has the calls made until then. -/
theorem c73_prev (clients : List Client) (hp : ∀ cl ∈ clients, cl.Proper) (d d' : Disk) (ok : d.OK) (h0 : ∀ q, d.name q = none)
    (l l2 : List (Nat × FMove)) (ps' : List (Prog Ended)) (fds' : Nat → Option Fd) (i : Nat) (ops : List ApiOp)
    (hi : clients[i]? = some (.session ops)) (path stdin : Bytes) (args : PArgs) (resp : Except GoErr Bytes)
    (h : Fine true (clients.map Client.run) (fun _ => none) d (l ++ (i, .call ⟨.exec path stdin args, resp⟩) :: l2) ps' fds' d') :
    ∃ op ∈ ops, ∃ verb p prev, op.verb = some verb ∧ p ∈ op.plugins ∧
      Invoked op.cfg verb op.name op.version op.rt p prev (answeredTo i l) ⟨path, stdin, args, resp⟩ ∧
      (op.added ≠ none → prev = none ∨ ∃ e ∈ (answeredTo i l).execs, ∃ x, Returned e x ∧ prev = some x) ∧
      (op.added = none → ∃ l', SameCalls l l' ∧ Found false clients l' op prev) := by
  obtain ⟨l', qs, fs, hI, hS, hc⟩ := fine_exec ok h
  obtain ⟨op, ho, verb, p, prev, h1, h2, h3, h4, h5⟩ := c70_prev clients hp _ _ (fun q => by simp [Disk.files, h0]) l' [] _ i ops hi _ _ _ _ hI
  rw [hc] at h3 h4
  exact ⟨op, ho, verb, p, prev, h1, h2, h3, h4, fun ha => ⟨l', hS, h5 ha⟩⟩

/-- The same for what a garbage collection executes (see C72). -/
theorem c73_gc (clients : List Client) (hp : ∀ cl ∈ clients, cl.Proper) (d d' : Disk) (ok : d.OK) (h0 : ∀ q, d.name q = none)
    (l l2 : List (Nat × FMove)) (ps' : List (Prog Ended)) (fds' : Nat → Option Fd) (i : Nat) (c : CNIConfig) (list : NetConfList)
    (valid : Option (List GCAttachment)) (hi : clients[i]? = some (.gc c list valid)) (path stdin : Bytes) (args : PArgs)
    (resp : Except GoErr Bytes)
    (h : Fine true (clients.map Client.run) (fun _ => none) d (l ++ (i, .call ⟨.exec path stdin args, resp⟩) :: l2) ps' fds' d') :
    list.disableGC = false ∧
    ((∃ a prev l', SameCalls l l' ∧ CollectedDel c list valid (answeredTo i l) a prev ⟨path, stdin, args, resp⟩ ∧
        AddedAttachment clients l' a ∧ Found false clients l' (.del c list (rtOf a)) prev) ∨
      (AtLeast list.cniVersion (1, 1, 0) ∧ ∃ p ∈ list.plugins,
        GCInvoked c list.name list.cniVersion valid p ⟨path, stdin, args, resp⟩)) := by
  obtain ⟨l', qs, fs, hI, hS, hc⟩ := fine_exec ok h
  obtain ⟨h1, h2⟩ := c72_gc clients hp _ _ (fun q => by simp [Disk.files, h0]) l' [] _ i c list valid hi _ _ _ _ hI
  refine ⟨h1, ?_⟩
  rcases h2 with ⟨a, prev, h3, h4, h5⟩ | h2
  · rw [hc] at h3
    exact .inl ⟨a, prev, l', hS, h3, h4, h5⟩
  · exact .inr h2

/-- The same for the answers of the query for the cached result (see C70) and of listings (see C72). -/
theorem c73_answers (clients : List Client) (hp : ∀ cl ∈ clients, cl.Proper) (d d' : Disk) (ok : d.OK) (h0 : ∀ q, d.name q = none)
    (l : List (Nat × FMove)) (ps' : List (Prog Ended)) (fds' : Nat → Option Fd) (i : Nat)
    (h : Fine true (clients.map Client.run) (fun _ => none) d l ps' fds' d') :
    ∃ l', SameCalls l l' ∧
      (∀ c list rt n prev, Replied clients ps' i n (.cachedResult c list rt) (.ok (.result prev)) →
        Found false clients l' (.cachedResult c list rt) prev) ∧
      ∀ c cid atts, clients[i]? = some (.listing c cid) → ps'[i]? = some (.done (.ok (.listing (.ok atts)))) →
        ∀ a ∈ atts, AddedAttachment clients l' a := by
  obtain ⟨l', qs', hI, hS, hE⟩ := c73_refine ok h
  have hnow : ∀ {x : Ended}, ps'[i]? = some (.done (.ok x)) → qs'[i]? = ps'[i]? := by
    intro x hx
    refine (hE i ?_).1
    cases hf : fds' i with
    | none => rfl
    | some fd =>
      obtain ⟨p, c, k', hk⟩ := fine_open ok h hf
      rw [hx] at hk
      cases hk
  have h0' : ∀ q, d.files q = none := fun q => by simp [Disk.files, h0]
  refine ⟨l', hS, ?_, ?_⟩
  · rintro c list rt n prev ⟨ops, rs, hc, ho, hps, hr⟩
    exact c70_cached clients hp _ _ h0' l' _ i ops hc hI rs (by rw [hnow hps, hps]) n c list rt ho prev hr
  · intro c cid atts hc hps
    exact c72_listing clients hp _ _ h0' l' _ i c cid hc hI atts (by rw [hnow hps, hps])

/-- A write a client makes is that of an ADD which has got that far. -/
theorem added_of_write {clients : List Client} (hp : ∀ cl ∈ clients, cl.Proper) {fs fs' : FS} {l l1 l2 : List (Nat × Move)}
    {ps' : List (Prog Ended)} {flt : Bool} {j : Nat} {q c : Bytes} {r : (Act.writeFile q c).Resp}
    (h : Inter flt (clients.map Client.run) fs l ps' fs') (hl : l = l1 ++ (j, .call ⟨.writeFile q c, r⟩) :: l2) :
    ∃ r left, AddedIn clients l q r left ∧ left q = some c := by
  obtain ⟨cl, hcl⟩ := inter_client h hl
  subst hl
  obtain ⟨mid, now, k, h1, hk⟩ := inter_before h
  obtain ⟨p', hp', hpath⟩ := inter_path h1 j (p := cl.run) (by rw [List.getElem?_map, hcl]; rfl)
  rw [hk] at hp'
  cases hp'
  obtain ⟨ops, rfl⟩ := path_client_write hpath
  obtain ⟨op, ho, pre, tr, k', htr, hpo⟩ := path_run hpath
  have hop : op.Proper := hp _ (List.mem_of_getElem? hcl) op ho
  obtain ⟨r, conf, info, ha, hq, -, -, hruns⟩ := path_write hop hpo
  refine ⟨r, fs.set q (some c), ⟨op, hq.symm, j, ops, pre, tr, _, c, fs, hcl, ho, ?_, by rw [callsBy_append, htr], ?_, ?_⟩, ?_⟩
  · rw [ha]; intro h; cases h
  · rw [← hq]; exact hruns fs
  · rw [← hq]; simp [FS.set]
  · simp [FS.set]

theorem mem_answered {l : List (Nat × FMove)} {l' : List (Nat × Move)} {i : Nat} {e : Event}
    (hc : callsBy i l' = answeredTo i l) (he : (i, .call e) ∈ l') : e ∈ answeredTo i l := by
  rw [← hc]
  unfold callsBy
  exact List.mem_filterMap.2 ⟨(i, .call e), List.mem_filter.2 ⟨he, by simp⟩, rfl⟩

theorem callsBy_mem {l' : List (Nat × Move)} {i : Nat} {e : Event} (he : e ∈ callsBy i l') : (i, .call e) ∈ l' := by
  unfold callsBy at he
  obtain ⟨⟨j, m⟩, hx, hm⟩ := List.mem_filterMap.1 he
  obtain ⟨hx', hj⟩ := List.mem_filter.1 hx
  simp at hj
  subst hj
  cases m with
  | call e' => simp only [Move.event?] at hm; cases hm; exact hx'
  | part n => cases hm

/-- At any moment, also if everything crashes then, a cache file is as before and no answered call has changed it;
it is missing because a call removed it; or it has the first bytes, or all, of what one ADD stored or is just storing. -/
theorem c73_now (clients : List Client) (hp : ∀ cl ∈ clients, cl.Proper) (d d' : Disk) (ok : d.OK) (l : List (Nat × FMove))
    (ps' : List (Prog Ended)) (fds' : Nat → Option Fd) (h : Fine true (clients.map Client.run) (fun _ => none) d l ps' fds' d') (q : Bytes) :
    ((∀ (j : Nat), ∀ e ∈ answeredTo j l, leaves q e = none) ∧ d'.files q = d.files q) ∨
    ((∃ j, (⟨.remove q, true⟩ : Event) ∈ answeredTo j l) ∧ d'.files q = none) ∨
    ∃ l' r left content n, SameCalls l l' ∧ AddedIn clients l' q r left ∧ left q = some content ∧ d'.files q = some (content.take n) := by
  obtain ⟨l', qs', hI, hS, hE⟩ := c73_refine ok h
  rcases c71_now clients hp _ _ l' _ hI q with ⟨h1, h2⟩ | ⟨l1, j, e, l2, hl, hv, hu⟩ | ⟨r, left, content, n, h1, h2, h3⟩
  · refine .inl ⟨fun j e he => ?_, h2⟩
    have : e ∈ callsBy j l' := by
      rcases hS j with hc | ⟨p, c, hc⟩ <;> rw [hc]
      · exact he
      · exact List.mem_append_left _ he
    exact h1 j e (callsBy_mem this)
  · rcases leaves_eq hv with ⟨c, hc, he⟩ | ⟨hc, he⟩
    · subst he
      obtain ⟨r, left, h1, h2⟩ := added_of_write hp hI hl
      exact .inr (.inr ⟨l', r, left, c, c.length, hS, h1, h2, by rw [hc, List.take_length]⟩)
    · subst he
      refine .inr (.inl ⟨⟨j, ?_⟩, hc⟩)
      have hm : (⟨.remove q, true⟩ : Event) ∈ callsBy j l' := by
        rw [hl, callsBy_append, callsBy_cons]
        exact List.mem_append_right _ (List.mem_cons_self ..)
      rcases hS j with hc | ⟨p, c, hc⟩
      · rw [← hc]; exact hm
      · rw [hc] at hm
        rcases List.mem_append.1 hm with hm | hm
        · exact hm
        · simp only [List.mem_cons, List.not_mem_nil, or_false] at hm
          have := congrArg Event.act hm
          cases this
  · exact .inr (.inr ⟨l', r, left, content, n, hS, h1, h2, h3⟩)

/-- If all clients have ended, the coarse run ends in the same state. -/
theorem fine_ended {clients : List Client} {d d' : Disk} (ok : d.OK) {l : List (Nat × FMove)} {ps' : List (Prog Ended)} {fds' : Nat → Option Fd}
    (h : Fine true (clients.map Client.run) (fun _ => none) d l ps' fds' d') (hd : AllEnded ps') :
    ∃ l', Inter false (clients.map Client.run) d.files l' ps' d'.files ∧ ∀ i, callsBy i l' = answeredTo i l := by
  obtain ⟨l', qs', hI, hS, hE⟩ := c73_refine ok h
  have hf : ∀ i, fds' i = none := by
    intro i
    cases hf : fds' i with
    | none => rfl
    | some fd =>
      obtain ⟨p, c, k', hk⟩ := fine_open ok h hf
      obtain ⟨x, hx⟩ := hd i _ hk
      cases hx
  have : qs' = ps' := List.ext_getElem? fun i => (hE i (hf i)).1
  subst this
  exact ⟨l', hI, fun i => (hE i (hf i)).2⟩

/-- Once all have ended, each file is as before; or it was removed, by a DEL of the attachment or a garbage collection for which it was
stale; or it has exactly what one ADD of the attachment stored, which replied success. -/
theorem c73_settled (clients : List Client) (hp : ∀ cl ∈ clients, cl.Proper) (d d' : Disk) (ok : d.OK) (l : List (Nat × FMove))
    (ps' : List (Prog Ended)) (fds' : Nat → Option Fd) (h : Fine true (clients.map Client.run) (fun _ => none) d l ps' fds' d')
    (hd : AllEnded ps') (q : Bytes) :
    ((∀ (j : Nat), ∀ e ∈ answeredTo j l, leaves q e = none) ∧ d'.files q = d.files q) ∨
    (∃ j cl, (⟨.remove q, true⟩ : Event) ∈ answeredTo j l ∧ d'.files q = none ∧ clients[j]? = some cl ∧ MayRemove q cl) ∨
    ∃ j n op r before tr after content left, op.key = q ∧ op.added ≠ none ∧ Replied clients ps' j n op (.ok (.result r)) ∧
      answeredTo j l = before ++ tr ++ after ∧ Runs false op.call d.files tr left (.ok (.result r)) ∧ left q = some content ∧
      d'.files q = some content := by
  obtain ⟨l', hI, hc⟩ := fine_ended ok h hd
  rcases c71_settled clients hp _ _ l' _ hI hd q with ⟨h1, h2⟩ | ⟨l1, j, cl, ⟨e, l2, hl, hv, -⟩, h2, h3, h4⟩ |
    ⟨l1, j, n, op, r, before, tr, after, content, left, -, h1, h2, h3, h4, h5, h6, h7⟩
  · exact .inl ⟨fun j e he => h1 j e (callsBy_mem (by rw [hc]; exact he)), h2⟩
  · rcases leaves_eq hv with ⟨c, h, -⟩ | ⟨-, he⟩
    · cases h
    · subst he
      refine .inr (.inl ⟨j, cl, mem_answered (hc j) ?_, h2, h3, h4⟩)
      rw [hl]
      exact List.mem_append_right _ (List.mem_cons_self ..)
  · rw [hc] at h4
    exact .inr (.inr ⟨j, n, op, r, before, tr, after, content, left, h1, h2, h3, h4, h5, h6, h7⟩)

/-- If an ADD of an attachment succeeded and nobody deletes it, the cache ends up with exactly the entry of one of the successful ADDs. -/
theorem c73_kept (clients : List Client) (hp : ∀ cl ∈ clients, cl.Proper) (d d' : Disk) (ok : d.OK) (l : List (Nat × FMove))
    (ps' : List (Prog Ended)) (fds' : Nat → Option Fd) (h : Fine true (clients.map Client.run) (fun _ => none) d l ps' fds' d')
    (hd : AllEnded ps') (j n : Nat) (op : ApiOp) (ha : op.added ≠ none) (x : Reply)
    (hr : Replied clients ps' j n op (.ok x)) (hno : ∀ cl ∈ clients, ¬ MayRemove op.key cl) :
    ∃ j' n' op' r tr left, op'.key = op.key ∧ op'.added ≠ none ∧ Replied clients ps' j' n' op' (.ok (.result r)) ∧
      Runs false op'.call d.files tr left (.ok (.result r)) ∧ left op.key ≠ none ∧ d'.files op.key = left op.key := by
  obtain ⟨l', hI, hc⟩ := fine_ended ok h hd
  exact c71_kept clients hp _ _ l' _ hI hd j n op ha x hr hno

/-- Some time the client may write to this file. Proof device: models no code. -/
def Wr (ps : List (Prog α)) (i : Nat) (p : Bytes) : Prop :=
  ∃ x tr c k, ps[i]? = some x ∧ Path x tr (.op (.writeFile p c) k)

theorem Wr.set {ps : List (Prog α)} {i j : Nat} {a : Act} {k : a.Resp → Prog α} {r : a.Resp} {p : Bytes} (hi : ps[i]? = some (.op a k))
    (h : Wr (ps.set i (k r)) j p) : Wr ps j p := by
  obtain ⟨x, tr, c, k', hx, hpath⟩ := h
  rw [set_getElem? ps i j _ hi] at hx
  by_cases hij : i = j
  · subst hij
    rw [if_pos rfl] at hx
    cases hx
    exact ⟨_, ⟨a, r⟩ :: tr, c, k', hi, .step hpath⟩
  · rw [if_neg hij] at hx
    exact ⟨x, tr, c, k', hx, hpath⟩

theorem fine_excl {ps ps' : List (Prog α)} {fds fds' : Nat → Option Fd} {d d' : Disk} {l : List (Nat × FMove)}
    (h : Fine false ps fds d l ps' fds' d') : ∀ {qs : List (Prog α)} {ah : Nat → Trace}, Rel ps fds d qs ah →
    (∀ i j p, i ≠ j → Wr ps i p → ¬ Wr ps j p) → Fine true ps fds d l ps' fds' d' := by
  induction h with
  | refl => intro _ _ _ _; exact .refl _ _ _
  | call hi hs hw _ ih =>
    intro qs ah R hn
    obtain ⟨-, qs', ah', -, R', -⟩ := fine_inter (.call hi hs hw (.refl _ _ _)) R
    exact .call hi hs hw (ih R' fun i j p hij h1 h2 => hn i j p hij (Wr.set hi h1) (Wr.set hi h2))
  | @removed _ _ _ _ _ _ _ p k _ hi hd _ ih =>
    intro qs ah R hn
    obtain ⟨-, qs', ah', -, R', -⟩ := fine_inter (.removed hi hd (.refl _ _ _)) R
    exact .removed hi hd (ih R' fun i j p hij h1 h2 => hn i j p hij (Wr.set (a := .remove _) (k := k) (r := true) hi h1)
      (Wr.set (a := .remove _) (k := k) (r := true) hi h2))
  | @opened ps _ fds _ d _ i p c k _ hi hf _ _ ih =>
    intro qs ah R hn
    have he : true = true → ∀ j fd, fds j = some fd → d.name p ≠ some fd.file := by
      rintro - j fd hj hname
      have hij : i ≠ j := by
        rintro rfl
        rw [hf] at hj
        cases hj
      have h1 := R.each j
      rw [hj] at h1
      generalize hx : ps[j]? = x at h1
      generalize qs[j]? = y at h1
      generalize ah j = t at h1
      cases h1 with
      | orphan ho => exact ho _ hname
      | @attached p' c' k' _ hn' =>
        have := R.ok.one _ _ _ hname hn'
        subst this
        exact hn i j p hij ⟨_, [], c, k, hi, .refl _⟩ ⟨_, [], c', k', hx, .refl _⟩
    obtain ⟨-, qs', ah', -, R', -⟩ := fine_inter (.opened hi hf he (.refl _ _ _)) R
    exact .opened hi hf he (ih R' hn)
  | wrote hi hf n hle _ ih =>
    intro qs ah R hn
    obtain ⟨-, qs', ah', -, R', -⟩ := fine_inter (.wrote hi hf n hle (.refl _ _ _)) R
    exact .wrote hi hf n hle (ih R' hn)
  | @closed _ _ _ _ _ _ i p c k _ _ hi hf ho _ ih =>
    intro qs ah R hn
    obtain ⟨-, qs', ah', -, R', -⟩ := fine_inter (.closed hi hf ho (.refl _ _ _)) R
    exact .closed hi hf ho (ih R' fun i j p hij h1 h2 => hn i j p hij (Wr.set (a := .writeFile _ _) (k := k) (r := true) hi h1)
      (Wr.set (a := .writeFile _ _) (k := k) (r := true) hi h2))

/-- If no two clients add the same attachment, they never have the same file open for writing: the theorems above hold without that
assumption. -/
theorem c73_apart (clients : List Client) (hp : ∀ cl ∈ clients, cl.Proper) (ha : Apart clients) (d d' : Disk) (ok : d.OK)
    (l : List (Nat × FMove)) (ps' : List (Prog Ended)) (fds' : Nat → Option Fd)
    (h : Fine false (clients.map Client.run) (fun _ => none) d l ps' fds' d') :
    Fine true (clients.map Client.run) (fun _ => none) d l ps' fds' d' := by
  refine fine_excl h (rel_start ok _) ?_
  have key : ∀ {i : Nat} {p : Bytes}, Wr (clients.map Client.run) i p →
      ∃ ops, clients[i]? = some (.session ops) ∧ ∃ op ∈ ops, op.added ≠ none ∧ op.key = p := by
    rintro i p ⟨x, tr, c, k, hx, hpath⟩
    rw [List.getElem?_map] at hx
    obtain ⟨cl, hcl, rfl⟩ := Option.map_eq_some_iff.1 hx
    obtain ⟨ops, rfl⟩ := path_client_write hpath
    obtain ⟨op, ho, pre, tr, k', htr, hpo⟩ := path_run hpath
    obtain ⟨r, conf, info, h1, h2, -⟩ := path_write (hp _ (List.mem_of_getElem? hcl) op ho) hpo
    exact ⟨ops, hcl, op, ho, (by rw [h1]; intro h; cases h), h2.symm⟩
  intro i j p hij h1 h2
  obtain ⟨ops, hc, op, ho, h3, h4⟩ := key h1
  obtain ⟨ops', hc', op', ho', h3', h4'⟩ := key h2
  exact ha i j ops ops' hc hc' hij op ho op' ho' h3 h3' (h4.trans h4'.symm)

namespace Example

/-- What a client is to do next. Test data; models no code. -/
inductive Todo where
  | go
  | opn
  | wr (n : Nat)

/-- Answer a call that changes no file; directories cannot be listed. Used in examples only. Proof device: models no code. -/
def look (find : Bytes → Except GoErr Bytes) (exec : Bytes → Bytes → PArgs → Except GoErr Bytes) (fs : FS) : (a : Act) → Option a.Resp
  | .find n _ => some (find n)
  | .exec p i a => some (exec p i a)
  | .readFile p => some (fs p)
  | .readDir _ => none
  | .mkdirAll _ => some true
  | .writeFile .. => none
  | .remove p => match fs p with
    | some _ => none
    | none => some false

theorem look_step {find : Bytes → Except GoErr Bytes} {exec : Bytes → Bytes → PArgs → Except GoErr Bytes} {fs : FS} {a : Act} {r : a.Resp}
    (h : look find exec fs a = some r) : Step false fs a r fs ∧ ∀ p c, a ≠ .writeFile p c := by
  cases a with
  | find => cases h; exact ⟨.find .., by intro p c h; cases h⟩
  | exec => cases h; exact ⟨.exec .., by intro p c h; cases h⟩
  | readFile => cases h; exact ⟨.readFile .., by intro p c h; cases h⟩
  | readDir => cases h
  | mkdirAll => cases h; exact ⟨.mkdirAll .., by intro p c h; cases h⟩
  | writeFile => cases h
  | remove p =>
    simp only [look] at h
    split at h
    · cases h
    · rename_i hc; cases h; exact ⟨.removeMissing _ _ hc, by intro p c h; cases h⟩

/-- Run programs by a schedule. Used in examples only. Proof device: models no code. -/
def fineRun (find : Bytes → Except GoErr Bytes) (exec : Bytes → Bytes → PArgs → Except GoErr Bytes) (excl : Bool) :
    List (Nat × Todo) → List (Prog α) → (Nat → Option Fd) → Disk → Option (List (Prog α) × (Nat → Option Fd) × Disk)
  | [], ps, fds, d => some (ps, fds, d)
  | (i, .go) :: l, ps, fds, d =>
    match ps[i]? with
    | some (.op (.writeFile _ c) k) =>
      match fds i with
      | some fd => if fd.off = c.length then fineRun find exec excl l (ps.set i (k true)) (fun j => if j = i then none else fds j) d else none
      | none => none
    | some (.op (.remove p) k) =>
      if d.name p ≠ none then fineRun find exec excl l (ps.set i (k true)) fds (d.unlinked p)
      else fineRun find exec excl l (ps.set i (k false)) fds d
    | some (.op a k) => (look find exec d.files a).bind fun r => fineRun find exec excl l (ps.set i (k r)) fds d
    | _ => none
  | (i, .opn) :: l, ps, fds, d =>
    match ps[i]? with
    | some (.op (.writeFile p _) _) =>
      if fds i = none ∧ (excl = true → ∀ j < ps.length, ∀ fd ∈ fds j, d.name p ≠ some fd.file) then
        fineRun find exec excl l ps (fun j => if j = i then some ⟨(d.opened p).1, 0⟩ else fds j) (d.opened p).2
      else none
    | _ => none
  | (i, .wr n) :: l, ps, fds, d =>
    match ps[i]?, fds i with
    | some (.op (.writeFile _ c) _), some fd =>
      if fd.off + n ≤ c.length then
        fineRun find exec excl l ps (fun j => if j = i then some ⟨fd.file, fd.off + n⟩ else fds j) (d.written fd.file fd.off ((c.drop fd.off).take n))
      else none
    | _, _ => none

theorem fineRun_fine {find : Bytes → Except GoErr Bytes} {exec : Bytes → Bytes → PArgs → Except GoErr Bytes} {excl : Bool} {sch : List (Nat × Todo)} :
    ∀ {ps : List (Prog α)} {fds : Nat → Option Fd} {d : Disk} {x : List (Prog α) × (Nat → Option Fd) × Disk},
      (∀ j, ps.length ≤ j → fds j = none) → fineRun find exec excl sch ps fds d = some x → ∃ l, Fine excl ps fds d l x.1 x.2.1 x.2.2 := by
  induction sch with
  | nil => intro ps fds d x _ h; cases h; exact ⟨_, .refl _ _ _⟩
  | cons m sch ih =>
    intro ps fds d x hb h
    obtain ⟨i, t⟩ := m
    cases t with
    | go =>
      simp only [fineRun] at h
      split at h
      · rename_i p c k hi
        split at h
        · rename_i fd hf
          split at h
          · rename_i ho
            obtain ⟨l, hl⟩ := ih (by
              intro j hj
              rw [List.length_set] at hj
              split
              · rfl
              · exact hb j hj) h
            exact ⟨_, .closed hi hf ho hl⟩
          · cases h
        · cases h
      · rename_i p k hi
        split at h
        · rename_i hn
          obtain ⟨l, hl⟩ := ih (by intro j hj; rw [List.length_set] at hj; exact hb j hj) h
          exact ⟨_, .removed hi hn hl⟩
        · rename_i hn
          obtain ⟨l, hl⟩ := ih (by intro j hj; rw [List.length_set] at hj; exact hb j hj) h
          have hn' : d.name p = none := by cases hh : d.name p with | none => rfl | some n => rw [hh] at hn; simp at hn
          exact ⟨_, .call hi (.removeMissing _ _ (by simp [Disk.files, hn'])) (by intro p c h; cases h) hl⟩
      · rename_i a k _ _ hi
        obtain ⟨r, hr, h⟩ := Option.bind_eq_some_iff.1 h
        obtain ⟨l, hl⟩ := ih (by intro j hj; rw [List.length_set] at hj; exact hb j hj) h
        exact ⟨_, .call hi (look_step hr).1 (look_step hr).2 hl⟩
      · cases h
    | opn =>
      simp only [fineRun] at h
      split at h
      · rename_i p c k hi
        split at h
        · rename_i hf
          obtain ⟨l, hl⟩ := ih (by
            intro j hj
            split
            · next hji =>
              subst hji
              rw [List.getElem?_eq_none hj] at hi
              cases hi
            · exact hb j hj) h
          refine ⟨_, .opened hi hf.1 (fun he j fd hj => ?_) hl⟩
          refine hf.2 he j ?_ fd hj
          rcases Nat.lt_or_ge j ps.length with h | h
          · exact h
          · rw [hb j h] at hj
            cases hj
        · cases h
      · cases h
    | wr n =>
      simp only [fineRun] at h
      split at h
      · rename_i p c k fd hi hf
        split at h
        · rename_i hn
          obtain ⟨l, hl⟩ := ih (by
            intro j hj
            split
            · next hji =>
              subst hji
              rw [List.getElem?_eq_none hj] at hi
              cases hi
            · exact hb j hj) h
          exact ⟨_, .wrote hi hf n hn hl⟩
        · cases h
      · cases h

/-- No files. Test data; models no code. -/
def blankDisk : Disk := { name := fun _ => none, data := fun _ => [], next := 0 }

theorem blankDisk_ok : blankDisk.OK := ⟨(by intro p q n h; cases h), (by intro p n h; cases h)⟩

theorem twins_fine {excl : Bool} {sch : List (Nat × Todo)} {e : List Bool} {b : Option Bytes}
    (h : (fineRun find good excl sch (twins.map Client.run) (fun _ => none) blankDisk).map (fun x => (x.1.map allOk, x.2.2.files key)) = some (e, b)) :
    ∃ l ps' fds' d', Fine excl (twins.map Client.run) (fun _ => none) blankDisk l ps' fds' d' ∧ ps'.map allOk = e ∧ d'.files key = b := by
  obtain ⟨x, hx, he⟩ := Option.map_eq_some_iff.1 h
  cases he
  obtain ⟨l, hl⟩ := fineRun_fine (fun _ _ => rfl) hx
  exact ⟨l, _, _, _, hl, rfl, rfl⟩

/-- Both ADDs up to the point where they store their entries. Test data; models no code. -/
def bothReady : List (Nat × Todo) :=
  [(0, .go), (1, .go), (0, .go), (1, .go), (0, .go), (1, .go), (0, .go), (1, .go), (0, .go), (1, .go)]

/-- One after the other: the file is emptied, written again, and has the entry of the second ADD. -/
example : ∃ l ps' fds' d', Fine true (twins.map Client.run) (fun _ => none) blankDisk l ps' fds' d' ∧ ps'.map allOk = [true, true] ∧
    d'.files key = some entryTwo :=
  twins_fine (sch := bothReady ++ [(0, .opn), (0, .wr 100), (0, .wr 81), (0, .go), (1, .opn), (1, .wr 181), (1, .go)]) (by decide +kernel)

/-- A crash in the middle of a write. -/
example : ∃ l ps' fds' d', Fine true (twins.map Client.run) (fun _ => none) blankDisk l ps' fds' d' ∧ ps'.map allOk = [true, false] ∧
    d'.files key = some b!"{\"ki" :=
  twins_fine (sch := bothReady ++ [(0, .opn), (0, .wr 181), (0, .go), (1, .opn), (1, .wr 4)]) (by decide +kernel)

/-- The same arguments, longer. Test data; models no code. -/
def rtLonger : RuntimeConf := { rt with args := [(b!"K", b!"WWWW")] }

/-- Two ADDs of one attachment with entries of different length. Test data; models no code. -/
def uneven : List Client := [.session [.add cfg list rt], .session [.add cfg list rtLonger]]

/-- An ADD and a DEL of one attachment. Test data; models no code. -/
def addDel : List Client := [.session [.add cfg list rt, .cachedResult cfg list rt], .session [.del cfg list rt]]

/-- The file is removed while it is being written: the ADD succeeds, but there is no entry. -/
example : ∃ l ps' fds' d', Fine true (addDel.map Client.run) (fun _ => none) blankDisk l ps' fds' d' ∧ ps'.map allOk = [true, true] ∧
    d'.files key = none := by
  have h : (fineRun find good true
      ([(0, .go), (0, .go), (0, .go), (0, .go), (0, .go), (0, .opn), (0, .wr 181),
        (1, .go), (1, .go), (1, .go), (1, .go), (1, .go), (1, .go), (0, .go), (0, .go)])
      (addDel.map Client.run) (fun _ => none) blankDisk).map (fun x => (x.1.map allOk, x.2.2.files key)) = some ([true, true], none) := by
    decide +kernel
  obtain ⟨x, hx, he⟩ := Option.map_eq_some_iff.1 h
  obtain ⟨l, hl⟩ := fineRun_fine (fun _ _ => rfl) hx
  obtain ⟨h1, h2⟩ := Prod.mk.inj he
  exact ⟨l, _, _, _, hl, h1, h2⟩

/-- The same network, another container. Test data; models no code. -/
def rtOther : RuntimeConf := { rt with containerID := b!"c2" }

/-- Two clients that use different attachments, and a garbage collection. -/
example : Apart [.session [.add cfg list rt, .del cfg list rt], .session [.add cfg list rtOther, .check cfg list rt], .gc cfg list none] := by
  have hk : ApiOp.key (.add cfg list rt) ≠ ApiOp.key (.add cfg list rtOther) := by decide +kernel
  intro i j ops ops' hi hj hij op ho op' ho' ha ha'
  match i, j with
  | 0, 0 | 1, 1 => exact absurd rfl hij
  | 2, _ => cases hi
  | _, 2 => cases hj
  | n + 3, _ => cases hi
  | _, n + 3 => cases hj
  | 0, 1 =>
    cases hi
    cases hj
    simp only [List.mem_cons, List.not_mem_nil, or_false] at ho ho'
    rcases ho with rfl | rfl <;> rcases ho' with rfl | rfl
    · exact hk
    · exact absurd rfl ha'
    · exact absurd rfl ha
    · exact absurd rfl ha
  | 1, 0 =>
    cases hi
    cases hj
    simp only [List.mem_cons, List.not_mem_nil, or_false] at ho ho'
    rcases ho with rfl | rfl <;> rcases ho' with rfl | rfl
    · exact hk.symm
    · exact absurd rfl ha'
    · exact absurd rfl ha
    · exact absurd rfl ha

end Example

/-- Without the assumption the theorems do not hold: two ADDs of one attachment, each writing its entry in one piece after both have
opened the file, both succeed and leave what neither has stored and nobody can read: it is no JSON. -/
theorem c73_mixture : ∃ l ps' fds' d', Fine false (Example.uneven.map Client.run) (fun _ => none) Example.blankDisk l ps' fds' d' ∧
    ps'.map Example.allOk = [true, true] ∧ ∃ b, d'.files Example.key = some b ∧ Json.parse b = none := by
  have h : (Example.fineRun Example.find Example.good false
      (Example.bothReady ++ [(0, .opn), (1, .opn), (1, .wr 184), (1, .go), (0, .wr 181), (0, .go)])
      (Example.uneven.map Client.run) (fun _ => none) Example.blankDisk).map
        (fun x => (x.1.map Example.allOk, (x.2.2.files Example.key).map fun b => (Json.parse b).isNone)) = some ([true, true], some true) := by
    decide +kernel
  obtain ⟨x, hx, he⟩ := Option.map_eq_some_iff.1 h
  obtain ⟨l, hl⟩ := Example.fineRun_fine (fun _ _ => rfl) hx
  obtain ⟨h1, h2⟩ := Prod.mk.inj he
  obtain ⟨b, hb, h3⟩ := Option.map_eq_some_iff.1 h2
  exact ⟨l, _, _, _, hl, h1, b, hb, Option.isNone_iff_eq_none.1 h3⟩

end Verif
