/- C74: what C70 to C73 say holds across any number of crashes and restarts. -/
import Verif.Spec.Restart
import Verif.Props.Posix

namespace Verif
open Spec

variable {α : Type} {flt : Bool}

/-- The steps of programs that come after `n` others. Proof device: models no code. -/
def shiftSteps (n : Nat) (l : List (Nat × Move)) : List (Nat × Move) := l.map fun x => (n + x.1, x.2)

/-- The clients of all epochs. Proof device: models no code. -/
def allClients (es : List Epoch) : List Client := es.flatMap fun e => e.clients

/-- The steps of all epochs, for clients after `n` others. Proof device: models no code. -/
def allSteps : Nat → List Epoch → List (Nat × Move)
  | _, [] => []
  | n, e :: es => shiftSteps n e.steps ++ allSteps (n + e.clients.length) es

/-- Only clients of an epoch make steps in it. Proof device: models no code. -/
def Inside (e : Epoch) : Prop := ∀ x ∈ e.steps, x.1 < e.clients.length

theorem inter_length {ps ps' : List (Prog α)} {fs fs' : FS} {l : List (Nat × Move)} (h : Inter flt ps fs l ps' fs') :
    ps'.length = ps.length := by
  induction h with
  | refl => rfl
  | call _ _ _ ih => rw [ih, List.length_set]
  | part _ _ _ ih => exact ih

theorem inter_inside {ps ps' : List (Prog α)} {fs fs' : FS} {l : List (Nat × Move)} (h : Inter flt ps fs l ps' fs') :
    ∀ x ∈ l, x.1 < ps.length := by
  induction h with
  | refl => intro x hx; cases hx
  | call hi _ _ ih =>
    intro x hx
    rcases List.mem_cons.1 hx with rfl | hx
    · exact (List.getElem?_eq_some_iff.1 hi).1
    · have := ih x hx
      rwa [List.length_set] at this
  | part hi _ _ ih =>
    intro x hx
    rcases List.mem_cons.1 hx with rfl | hx
    · exact (List.getElem?_eq_some_iff.1 hi).1
    · exact ih x hx

theorem inter_append {ps ps1 ps2 : List (Prog α)} {fs fs1 fs2 : FS} {l1 l2 : List (Nat × Move)} (h1 : Inter flt ps fs l1 ps1 fs1)
    (h2 : Inter flt ps1 fs1 l2 ps2 fs2) : Inter flt ps fs (l1 ++ l2) ps2 fs2 := by
  induction h1 with
  | refl => exact h2
  | call hi hs _ ih => exact .call hi hs (ih h2)
  | part hi n _ ih => exact .part hi n (ih h2)

theorem mid_getElem? (pre ps post : List (Prog α)) (i : Nat) {x : Prog α} (hi : ps[i]? = some x) :
    (pre ++ ps ++ post)[pre.length + i]? = some x := by
  have hlt := (List.getElem?_eq_some_iff.1 hi).1
  rw [List.append_assoc, List.getElem?_append_right (by omega), Nat.add_sub_cancel_left, List.getElem?_append_left hlt, hi]

theorem mid_set (pre ps post : List (Prog α)) (i : Nat) (y : Prog α) (hi : i < ps.length) :
    (pre ++ ps ++ post).set (pre.length + i) y = pre ++ ps.set i y ++ post := by
  rw [List.append_assoc, List.set_append, if_neg (by omega), Nat.add_sub_cancel_left, List.set_append, if_pos hi, List.append_assoc]

theorem inter_shift {ps ps' : List (Prog α)} {fs fs' : FS} {l : List (Nat × Move)} (pre post : List (Prog α))
    (h : Inter flt ps fs l ps' fs') : Inter flt (pre ++ ps ++ post) fs (shiftSteps pre.length l) (pre ++ ps' ++ post) fs' := by
  induction h with
  | refl => exact .refl _ _
  | call hi hs _ ih =>
    refine .call (mid_getElem? pre _ post _ hi) hs ?_
    rw [mid_set _ _ _ _ _ (List.getElem?_eq_some_iff.1 hi).1]
    exact ih
  | part hi n _ ih => exact .part (mid_getElem? pre _ post _ hi) n ih

theorem epochs_inside {es : List Epoch} {fs fs' : FS} (h : Epochs flt es fs fs') : ∀ e ∈ es, Inside e := by
  induction h with
  | nil => intro e he; cases he
  | cons h _ ih =>
    intro e he
    rcases List.mem_cons.1 he with rfl | he
    · intro x hx
      have := inter_inside h x hx
      rwa [List.length_map] at this
    · exact ih e he

/-- All epochs are one run, in which clients stop for ever when their epoch ends. -/
theorem epochs_inter {es : List Epoch} {fs fs' : FS} (h : Epochs flt es fs fs') : ∀ pre post : List (Prog Ended),
    ∃ qs : List (Prog Ended), qs.length = (allClients es).length ∧
      Inter flt (pre ++ (allClients es).map Client.run ++ post) fs (allSteps pre.length es) (pre ++ qs ++ post) fs' := by
  induction h with
  | nil => intro pre post; exact ⟨[], rfl, by simpa [allClients, allSteps] using Inter.refl _ _⟩
  | @cons e es fs fs1 fs' ps' h _ ih =>
    intro pre post
    have hlen : ps'.length = e.clients.length := by rw [inter_length h, List.length_map]
    obtain ⟨qs, hq, hI⟩ := ih (pre ++ ps') post
    refine ⟨ps' ++ qs, ?_, ?_⟩
    · simp [allClients, hlen, hq]
    · have h1 := inter_shift pre ((allClients es).map Client.run ++ post) h
      have e1 : pre ++ (allClients (e :: es)).map Client.run ++ post = pre ++ e.clients.map Client.run ++ ((allClients es).map Client.run ++ post) := by
        simp [allClients]
      rw [e1]
      refine inter_append h1 ?_
      rw [List.length_append, hlen] at hI
      simpa using hI

theorem callsBy_shift (n i : Nat) (l : List (Nat × Move)) : callsBy (n + i) (shiftSteps n l) = callsBy i l := by
  unfold callsBy shiftSteps
  induction l with
  | nil => rfl
  | cons x l ih =>
    simp only [List.map_cons, List.filter_cons]
    by_cases h : x.1 = i
    · simp [h] at ih ⊢
      rw [List.filterMap_cons, List.filterMap_cons, ih]
    · simpa [h] using ih

theorem callsBy_none {j : Nat} {l : List (Nat × Move)} (h : ∀ x ∈ l, x.1 ≠ j) : callsBy j l = [] := by
  unfold callsBy
  rw [List.filter_eq_nil_iff.2 (by intro x hx; simpa using h x hx)]
  rfl

theorem shift_ge {n : Nat} {l : List (Nat × Move)} : ∀ x ∈ shiftSteps n l, n ≤ x.1 := by
  intro x hx
  obtain ⟨y, -, rfl⟩ := List.mem_map.1 hx
  exact Nat.le_add_right _ _

theorem shift_lt {n : Nat} {e : Epoch} (h : Inside e) : ∀ x ∈ shiftSteps n e.steps, x.1 < n + e.clients.length := by
  intro x hx
  obtain ⟨y, hy, rfl⟩ := List.mem_map.1 hx
  have := h y hy
  show n + y.1 < _
  omega

theorem allSteps_ge {es : List Epoch} : ∀ {n : Nat}, ∀ x ∈ allSteps n es, n ≤ x.1 := by
  induction es with
  | nil => intro n x hx; cases hx
  | cons e es ih =>
    intro n x hx
    rcases List.mem_append.1 hx with hx | hx
    · exact shift_ge x hx
    · have := ih x hx
      omega

theorem allSteps_lt {es : List Epoch} : ∀ {n : Nat}, (∀ e ∈ es, Inside e) → ∀ x ∈ allSteps n es, x.1 < n + (allClients es).length := by
  induction es with
  | nil => intro n _ x hx; cases hx
  | cons e es ih =>
    intro n hin x hx
    have hl : (allClients (e :: es)).length = e.clients.length + (allClients es).length := by simp [allClients]
    rcases List.mem_append.1 hx with hx | hx
    · have := shift_lt (hin e (List.mem_cons_self ..)) x hx
      omega
    · have := ih (fun e' he => hin e' (List.mem_cons_of_mem _ he)) x hx
      omega

/-- The calls of a client are those it made in its epoch. -/
theorem local_calls {es : List Epoch} : ∀ {n j : Nat} {cl : Client}, (∀ e ∈ es, Inside e) → (allClients es)[j]? = some cl →
    ∃ e ∈ es, ∃ i, e.clients[i]? = some cl ∧ callsBy (n + j) (allSteps n es) = callsBy i e.steps := by
  induction es with
  | nil => intro n j cl _ h; cases h
  | cons e es ih =>
    intro n j cl hin h
    have h' : (e.clients ++ allClients es)[j]? = some cl := by simpa [allClients] using h
    rcases Nat.lt_or_ge j e.clients.length with hj | hj
    · rw [List.getElem?_append_left hj] at h'
      refine ⟨e, List.mem_cons_self .., j, h', ?_⟩
      rw [allSteps, callsBy_append, callsBy_shift, callsBy_none (l := allSteps _ es), List.append_nil]
      intro x hx
      have := allSteps_ge x hx
      omega
    · rw [List.getElem?_append_right hj] at h'
      obtain ⟨e', he, i, h1, h2⟩ := ih (n := n + e.clients.length) (fun e' he => hin e' (List.mem_cons_of_mem _ he)) h'
      refine ⟨e', List.mem_cons_of_mem _ he, i, h1, ?_⟩
      rw [allSteps, callsBy_append, callsBy_none (l := shiftSteps n e.steps), List.nil_append, ← h2]
      · congr 1
        omega
      · intro x hx
        have := shift_lt (hin e (List.mem_cons_self ..)) x hx
        omega

theorem allSteps_snoc (es : List Epoch) (e : Epoch) : ∀ n, allSteps n (es ++ [e]) = allSteps n es ++ shiftSteps (n + (allClients es).length) e.steps := by
  induction es with
  | nil => intro n; simp [allSteps, allClients]
  | cons e' es ih =>
    intro n
    have hl : (allClients (e' :: es)).length = e'.clients.length + (allClients es).length := by simp [allClients]
    rw [List.cons_append, allSteps, allSteps, ih, List.append_assoc, hl, Nat.add_assoc]

theorem added_local {es : List Epoch} (hin : ∀ e ∈ es, Inside e) {op : ApiOp} {r : Option Result} {left : FS}
    (h : AddedAs (allClients es) (allSteps 0 es) op r left) : ∃ e ∈ es, AddedAs e.clients e.steps op r left := by
  obtain ⟨j, ops, before, tr, after, content, fs, hj, ho, ha, hc, hruns, hl⟩ := h
  obtain ⟨e, he, i, h1, h2⟩ := local_calls (n := 0) hin hj
  rw [Nat.zero_add] at h2
  exact ⟨e, he, i, ops, before, tr, after, content, fs, h1, ho, ha, by rw [← h2, hc], hruns, hl⟩

theorem step_local {es : List Epoch} : ∀ {m : Nat} {x : Nat × Move}, x ∈ allSteps m es → ∃ e ∈ es, ∃ i, (i, x.2) ∈ e.steps := by
  induction es with
  | nil => intro m x hx; cases hx
  | cons e es ih =>
    intro m x hx
    rcases List.mem_append.1 hx with hx | hx
    · obtain ⟨y, hy, rfl⟩ := List.mem_map.1 hx
      exact ⟨e, List.mem_cons_self .., y.1, hy⟩
    · obtain ⟨e', he, y, hy⟩ := ih hx
      exact ⟨e', List.mem_cons_of_mem _ he, y, hy⟩

theorem found_local {es : List Epoch} (hin : ∀ e ∈ es, Inside e) {op : ApiOp} {prev : Option Result}
    (h : Found flt (allClients es) (allSteps 0 es) op prev) : FoundAfter flt es op prev := by
  cases h with
  | nothing => exact .nothing
  | stored ha hr =>
    obtain ⟨op', hk, ha⟩ := ha
    obtain ⟨e, he, ha⟩ := added_local hin ha
    exact .stored he ⟨op', hk, ha⟩ hr
  | blank hu hb =>
    refine .blank ?_ hb
    rcases hu with hu | ⟨x, hx, n, hn⟩
    · exact .inl hu
    · obtain ⟨e, he, y, hy⟩ := step_local hx
      exact .inr ⟨e, he, .inr ⟨_, hy, n, hn⟩⟩

/-- The run of all epochs up to a moment of the last one. -/
theorem epochs_last {es : List Epoch} {fs fs1 fs' : FS} (h : Epochs flt es fs fs1) {clients : List Client} {l : List (Nat × Move)}
    {ps' : List (Prog Ended)} (hl : Inter flt (clients.map Client.run) fs1 l ps' fs') :
    ∃ qs : List (Prog Ended), qs.length = (allClients es).length ∧
      Inter flt ((allClients es ++ clients).map Client.run) fs (allSteps 0 es ++ shiftSteps (allClients es).length l) (qs ++ ps') fs' := by
  obtain ⟨qs, hq, hI⟩ := epochs_inter h [] (clients.map Client.run)
  have h2 := inter_shift qs [] hl
  rw [List.append_nil, List.append_nil, hq] at h2
  rw [List.nil_append, List.nil_append] at hI
  rw [List.map_append]
  exact ⟨qs, hq, inter_append hI h2⟩

theorem last_calls {es : List Epoch} (hin : ∀ e ∈ es, Inside e) (i : Nat) (l : List (Nat × Move)) :
    callsBy ((allClients es).length + i) (allSteps 0 es ++ shiftSteps (allClients es).length l) = callsBy i l := by
  rw [callsBy_append, callsBy_shift, callsBy_none, List.nil_append]
  intro x hx
  have := allSteps_lt (n := 0) hin x hx
  omega

theorem last_client (es : List Epoch) {clients : List Client} {i : Nat} {cl : Client} (hi : clients[i]? = some cl) :
    (allClients es ++ clients)[(allClients es).length + i]? = some cl := by
  rw [List.getElem?_append_right (by omega), Nat.add_sub_cancel_left, hi]

theorem all_proper {es : List Epoch} (hp : ∀ e ∈ es, ∀ cl ∈ e.clients, cl.Proper) {clients : List Client} (hc : ∀ cl ∈ clients, cl.Proper) :
    ∀ cl ∈ allClients es ++ clients, cl.Proper := by
  intro cl hcl
  rcases List.mem_append.1 hcl with h | h
  · obtain ⟨e, he, h⟩ := List.mem_flatMap.1 h
    exact hp e he cl h
  · exact hc cl h

theorem all_snoc (es : List Epoch) (clients : List Client) (l : List (Nat × Move)) :
    allClients es ++ clients = allClients (es ++ [⟨clients, l⟩]) ∧
      allSteps 0 es ++ shiftSteps (allClients es).length l = allSteps 0 (es ++ [⟨clients, l⟩]) := by
  refine ⟨by simp [allClients], ?_⟩
  rw [allSteps_snoc, Nat.zero_add]

theorem inside_snoc {es : List Epoch} (hin : ∀ e ∈ es, Inside e) {clients : List Client} {fs fs' : FS} {l : List (Nat × Move)}
    {ps' : List (Prog Ended)} (hl : Inter flt (clients.map Client.run) fs l ps' fs') : ∀ e ∈ es ++ [⟨clients, l⟩], Inside e := by
  intro e he
  rcases List.mem_append.1 he with h | h
  · exact hin e h
  · simp only [List.mem_cons, List.not_mem_nil, or_false] at h
    subst h
    intro x hx
    have := inter_inside hl x hx
    rwa [List.length_map] at this

theorem shift_mid (n i : Nat) (m : Move) (l l2 : List (Nat × Move)) :
    shiftSteps n (l ++ (i, m) :: l2) = shiftSteps n l ++ (n + i, m) :: shiftSteps n l2 := by
  simp [shiftSteps]

/-- C74: after any number of crashes and restarts, starting with an empty cache, with any number of clients at the same time: what
plugins are executed with. Previous results of CHECK and DEL were stored by an ADD of the same attachment in this or an earlier epoch. -/
theorem c74_prev (es : List Epoch) (hpe : ∀ e ∈ es, ∀ cl ∈ e.clients, cl.Proper) (fs fs1 fs' : FS) (h0 : ∀ q, fs q = none)
    (he : Epochs flt es fs fs1) (clients : List Client) (hp : ∀ cl ∈ clients, cl.Proper)
    (l l2 : List (Nat × Move)) (ps' : List (Prog Ended)) (i : Nat) (ops : List ApiOp) (hi : clients[i]? = some (.session ops))
    (path stdin : Bytes) (args : PArgs) (resp : Except GoErr Bytes)
    (h : Inter flt (clients.map Client.run) fs1 (l ++ (i, .call ⟨.exec path stdin args, resp⟩) :: l2) ps' fs') :
    ∃ op ∈ ops, ∃ verb p prev, op.verb = some verb ∧ p ∈ op.plugins ∧
      Invoked op.cfg verb op.name op.version op.rt p prev (callsBy i l) ⟨path, stdin, args, resp⟩ ∧
      (op.added ≠ none → prev = none ∨ ∃ e ∈ (callsBy i l).execs, ∃ x, Returned e x ∧ prev = some x) ∧
      (op.added = none → FoundAfter flt (es ++ [⟨clients, l⟩]) op prev) := by
  have hin := epochs_inside he
  obtain ⟨qs, hq, hI⟩ := epochs_last he h
  obtain ⟨mid, now, k, h1, -⟩ := inter_before h
  rw [shift_mid, ← List.append_assoc] at hI
  obtain ⟨op, ho, verb, p, prev, g1, g2, g3, g4, g5⟩ :=
    c70_prev _ (all_proper hpe hp) _ _ h0 _ _ _ _ ops (last_client es hi) _ _ _ _ hI
  rw [last_calls hin] at g3 g4
  refine ⟨op, ho, verb, p, prev, g1, g2, g3, g4, fun ha => ?_⟩
  have := g5 ha
  rw [(all_snoc es clients l).1, (all_snoc es clients l).2] at this
  exact found_local (inside_snoc hin h1) this

/-- C74 for what a garbage collection executes. -/
theorem c74_gc (es : List Epoch) (hpe : ∀ e ∈ es, ∀ cl ∈ e.clients, cl.Proper) (fs fs1 fs' : FS) (h0 : ∀ q, fs q = none)
    (he : Epochs flt es fs fs1) (clients : List Client) (hp : ∀ cl ∈ clients, cl.Proper)
    (l l2 : List (Nat × Move)) (ps' : List (Prog Ended)) (i : Nat) (c : CNIConfig) (list : NetConfList) (valid : Option (List GCAttachment))
    (hi : clients[i]? = some (.gc c list valid)) (path stdin : Bytes) (args : PArgs) (resp : Except GoErr Bytes)
    (h : Inter flt (clients.map Client.run) fs1 (l ++ (i, .call ⟨.exec path stdin args, resp⟩) :: l2) ps' fs') :
    list.disableGC = false ∧
    ((∃ a prev, CollectedDel c list valid (callsBy i l) a prev ⟨path, stdin, args, resp⟩ ∧
        (∃ e ∈ es ++ [⟨clients, l⟩], AddedAttachment e.clients e.steps a) ∧
        FoundAfter flt (es ++ [⟨clients, l⟩]) (.del c list (rtOf a)) prev) ∨
      (AtLeast list.cniVersion (1, 1, 0) ∧ ∃ p ∈ list.plugins,
        GCInvoked c list.name list.cniVersion valid p ⟨path, stdin, args, resp⟩)) := by
  have hin := epochs_inside he
  obtain ⟨qs, hq, hI⟩ := epochs_last he h
  obtain ⟨mid, now, k, h1, -⟩ := inter_before h
  rw [shift_mid, ← List.append_assoc] at hI
  obtain ⟨g1, g2⟩ := c72_gc _ (all_proper hpe hp) _ _ h0 _ _ _ _ c list valid (last_client es hi) _ _ _ _ hI
  refine ⟨g1, ?_⟩
  rcases g2 with ⟨a, prev, g3, g4, g5⟩ | g2
  · rw [last_calls hin] at g3
    rw [(all_snoc es clients l).1, (all_snoc es clients l).2] at g4 g5
    obtain ⟨op, r, left, g6, g7⟩ := g4
    obtain ⟨e, hee, g7⟩ := added_local (inside_snoc hin h1) g7
    exact .inl ⟨a, prev, g3, ⟨e, hee, op, r, left, g6, g7⟩, found_local (inside_snoc hin h1) g5⟩
  · exact .inr g2

/-- C74 for the answers of the query for the cached result and of listings. -/
theorem c74_answers (es : List Epoch) (hpe : ∀ e ∈ es, ∀ cl ∈ e.clients, cl.Proper) (fs fs1 fs' : FS) (h0 : ∀ q, fs q = none)
    (he : Epochs flt es fs fs1) (clients : List Client) (hp : ∀ cl ∈ clients, cl.Proper)
    (l : List (Nat × Move)) (ps' : List (Prog Ended)) (i : Nat) (h : Inter flt (clients.map Client.run) fs1 l ps' fs') :
    (∀ c list rt n prev, Replied clients ps' i n (.cachedResult c list rt) (.ok (.result prev)) →
      FoundAfter flt (es ++ [⟨clients, l⟩]) (.cachedResult c list rt) prev) ∧
    ∀ c cid atts, clients[i]? = some (.listing c cid) → ps'[i]? = some (.done (.ok (.listing (.ok atts)))) →
      ∀ a ∈ atts, ∃ e ∈ es ++ [⟨clients, l⟩], AddedAttachment e.clients e.steps a := by
  have hin := epochs_inside he
  obtain ⟨qs, hq, hI⟩ := epochs_last he h
  have hlast : ∀ {x : Prog Ended}, ps'[i]? = some x → (qs ++ ps')[(allClients es).length + i]? = some x := by
    intro x hx
    rw [List.getElem?_append_right (by omega), hq, Nat.add_sub_cancel_left, hx]
  constructor
  · rintro c list rt n prev ⟨ops, rs, hc, ho, hps, hr⟩
    have := c70_cached _ (all_proper hpe hp) _ _ h0 _ _ _ ops (last_client es hc) hI rs (hlast hps) n c list rt ho prev hr
    rw [(all_snoc es clients l).1, (all_snoc es clients l).2] at this
    exact found_local (inside_snoc hin h) this
  · intro c cid atts hc hps a ha
    have := c72_listing _ (all_proper hpe hp) _ _ h0 _ _ _ c cid (last_client es hc) hI atts (hlast hps) a ha
    rw [(all_snoc es clients l).1, (all_snoc es clients l).2] at this
    obtain ⟨op, r, left, g6, g7⟩ := this
    obtain ⟨e, hee, g7⟩ := added_local (inside_snoc hin h) g7
    exact ⟨e, hee, op, r, left, g6, g7⟩

/-- C74: whatever crashed when, a cache file is as before, it is missing and was removed in some epoch, or it has the first bytes, or
all, of what one ADD of that attachment stored in some epoch. -/
theorem c74_now (es : List Epoch) (hpe : ∀ e ∈ es, ∀ cl ∈ e.clients, cl.Proper) (fs fs' : FS) (he : Epochs false es fs fs') (q : Bytes) :
    fs' q = fs q ∨ (fs' q = none ∧ ∃ e ∈ es, ∃ j, (j, .call ⟨.remove q, true⟩) ∈ e.steps) ∨
      ∃ e ∈ es, ∃ r left content n, AddedIn e.clients e.steps q r left ∧ left q = some content ∧ fs' q = some (content.take n) := by
  have hin := epochs_inside he
  obtain ⟨qs, hq, hI⟩ := epochs_inter he [] []
  rw [List.nil_append, List.append_nil] at hI
  have hp : ∀ cl ∈ allClients es, cl.Proper := by
    have := all_proper hpe (clients := []) (by intro cl h; cases h)
    rwa [List.append_nil] at this
  have fin : ∀ {r left content n}, AddedIn (allClients es) (allSteps 0 es) q r left → left q = some content → fs' q = some (content.take n) →
      ∃ e ∈ es, ∃ r left content n, AddedIn e.clients e.steps q r left ∧ left q = some content ∧ fs' q = some (content.take n) := by
    rintro r left content n ⟨op, hk, ha⟩ h1 h2
    obtain ⟨e, hee, ha⟩ := added_local hin ha
    exact ⟨e, hee, r, left, content, n, ⟨op, hk, ha⟩, h1, h2⟩
  rcases c71_now _ hp _ _ _ _ hI q with ⟨-, h1⟩ | ⟨l1, j, e, l2, hl, hv, -⟩ | ⟨r, left, content, n, h1, h2, h3⟩
  · exact .inl h1
  · rcases leaves_eq hv with ⟨c, hc, hE⟩ | ⟨hc, hE⟩
    · subst hE
      obtain ⟨r, left, h1, h2⟩ := added_of_write hp hI hl
      exact .inr (.inr (fin (n := c.length) h1 h2 (by rw [hc, List.take_length])))
    · subst hE
      obtain ⟨e, hee, i, hi⟩ := step_local (m := 0) (es := es) (x := (j, .call ⟨.remove q, true⟩))
        (by rw [show allSteps 0 es = _ from hl]; exact List.mem_append_right _ (List.mem_cons_self ..))
      exact .inr (.inl ⟨hc, e, hee, i, hi⟩)
  · exact .inr (.inr (fin h1 h2 h3))

/-- C74: an entry survives all crashes and restarts as long as nobody stores or removes it. -/
theorem c74_kept (es : List Epoch) (hpe : ∀ e ∈ es, ∀ cl ∈ e.clients, cl.Proper) (fs fs' : FS) (he : Epochs false es fs fs') (q : Bytes)
    (hno : ∀ e ∈ es, ∀ cl ∈ e.clients, cl.StoresNot q ∧ ¬ MayRemove q cl) : fs' q = fs q := by
  induction he with
  | nil => rfl
  | @cons e es fs fs1 fs' ps' h _ ih =>
    rw [ih (fun e' he' => hpe e' (List.mem_cons_of_mem _ he')) (fun e' he' => hno e' (List.mem_cons_of_mem _ he'))]
    have hp := hpe e (List.mem_cons_self ..)
    have hn := hno e (List.mem_cons_self ..)
    have noAdd : ∀ {r left}, ¬ AddedIn e.clients e.steps q r left := by
      rintro r left ⟨op, hk, j, ops, -, -, -, -, -, hj, ho, ha, -⟩
      exact ha ((hn _ (List.mem_of_getElem? hj)).1 op ho hk)
    rcases c71_now e.clients hp _ _ _ _ h q with ⟨-, h1⟩ | ⟨l1, j, ev, l2, hl, hv, -⟩ | ⟨r, left, content, n, h1, -⟩
    · exact h1
    · exfalso
      rcases leaves_eq hv with ⟨c, -, hE⟩ | ⟨-, hE⟩
      · subst hE
        obtain ⟨r, left, h1, -⟩ := added_of_write hp h hl
        exact noAdd h1
      · subst hE
        obtain ⟨cl, hcl⟩ := inter_client h hl
        rw [hl] at h
        obtain ⟨mid, now, k, h1, hk⟩ := inter_before h
        obtain ⟨p', hp', hpath⟩ := inter_path h1 j (p := cl.run) (by rw [List.getElem?_map, hcl]; rfl)
        rw [hk] at hp'
        cases hp'
        have hmem := List.mem_of_getElem? hcl
        exact (hn cl hmem).2 (path_client_remove (hp cl hmem) hpath)
    · exact absurd h1 noAdd

/-- C74 for files that are opened, written and closed, no two clients having a file open for writing at the same time: the same files
could have come about with each write done in one step, in the same epochs, with the same calls and answers. -/
theorem c74_posix (es : List FineEpoch) (d d' : Disk) (ok : d.OK) (h : FineEpochs es d d') :
    d'.OK ∧ ∃ es', Epochs false es' d.files d'.files ∧ es'.length = es.length ∧
      ∀ (i : Nat) (e : FineEpoch) (e' : Epoch), es[i]? = some e → es'[i]? = some e' → e'.clients = e.clients ∧ SameCalls e.steps e'.steps := by
  induction h with
  | nil d => exact ⟨ok, [], .nil _, rfl, by intro i e e' h; cases h⟩
  | @cons e es d d1 d' ps' fds' h _ ih =>
    obtain ⟨_, _, _, _, hR, _⟩ := fine_inter h (rel_start ok _)
    obtain ⟨ok', es', h1, h2, h3⟩ := ih hR.ok
    obtain ⟨l', qs', hI, hS, -⟩ := c73_refine ok h
    refine ⟨ok', ⟨e.clients, l'⟩ :: es', .cons hI h1, by simp [h2], fun i x x' hx hx' => ?_⟩
    cases i with
    | zero =>
      cases hx
      cases hx'
      exact ⟨rfl, hS⟩
    | succ i => exact h3 i x x' hx hx'

/-- The previous results with such files: after any number of crashes and restarts, starting with an empty disk. -/
theorem c74_posix_prev (es : List FineEpoch) (hpe : ∀ e ∈ es, ∀ cl ∈ e.clients, cl.Proper) (d d1 d' : Disk) (ok : d.OK)
    (h0 : ∀ q, d.name q = none) (he : FineEpochs es d d1) (clients : List Client) (hp : ∀ cl ∈ clients, cl.Proper)
    (l l2 : List (Nat × FMove)) (ps' : List (Prog Ended)) (fds' : Nat → Option Fd) (i : Nat) (ops : List ApiOp)
    (hi : clients[i]? = some (.session ops)) (path stdin : Bytes) (args : PArgs) (resp : Except GoErr Bytes)
    (h : Fine true (clients.map Client.run) (fun _ => none) d1 (l ++ (i, .call ⟨.exec path stdin args, resp⟩) :: l2) ps' fds' d') :
    ∃ op ∈ ops, ∃ verb p prev, op.verb = some verb ∧ p ∈ op.plugins ∧
      Invoked op.cfg verb op.name op.version op.rt p prev (answeredTo i l) ⟨path, stdin, args, resp⟩ ∧
      (op.added ≠ none → prev = none ∨ ∃ e ∈ (answeredTo i l).execs, ∃ x, Returned e x ∧ prev = some x) ∧
      (op.added = none → ∃ (es' : List Epoch) (l' : List (Nat × Move)), SameCalls l l' ∧ es'.length = es.length ∧
        (∀ (i : Nat) (e : FineEpoch) (e' : Epoch), es[i]? = some e → es'[i]? = some e' → e'.clients = e.clients ∧ SameCalls e.steps e'.steps) ∧
        FoundAfter false (es' ++ [⟨clients, l'⟩]) op prev) := by
  obtain ⟨ok1, es', h1, h2, h3⟩ := c74_posix es d d1 ok he
  obtain ⟨l', qs, fs, hI, hS, hc⟩ := fine_exec ok1 h
  have hpe' : ∀ e ∈ es', ∀ cl ∈ e.clients, cl.Proper := by
    intro e' he' cl hcl
    obtain ⟨n, hn, hget⟩ := List.getElem_of_mem he'
    have hn' : n < es.length := by omega
    have := (h3 n es[n] e' (List.getElem?_eq_getElem hn') (by rw [List.getElem?_eq_getElem hn, hget])).1
    rw [this] at hcl
    exact hpe _ (List.getElem_mem hn') cl hcl
  obtain ⟨op, ho, verb, p, prev, g1, g2, g3, g4, g5⟩ :=
    c74_prev es' hpe' _ _ _ (fun q => by simp [Disk.files, h0]) h1 clients hp l' [] _ i ops hi _ _ _ _ hI
  rw [hc] at g3 g4
  exact ⟨op, ho, verb, p, prev, g1, g2, g3, g4, fun ha => ⟨es', l', hS, h2, h3, g5 ha⟩⟩

namespace Example

theorem two_epochs {β : Type} {first second : List Client} {sch1 sch2 : List (Nat × Option Nat)} {f : FS → List (Nat × Move) → List (Prog Ended) → FS → β}
    {b : β} (h : ((Prog.interInterp find good sch1 (first.map Client.run) noFiles).bind fun x =>
      (Prog.interInterp find good sch2 (second.map Client.run) x.2.2).map fun y => f x.2.2 y.1 y.2.1 y.2.2) = some b) :
    ∃ l1 fs1 l ps' fs', Epochs false [⟨first, l1⟩] noFiles fs1 ∧ Inter false (second.map Client.run) fs1 l ps' fs' ∧ f fs1 l ps' fs' = b := by
  obtain ⟨x, hx, h⟩ := Option.bind_eq_some_iff.1 h
  obtain ⟨y, hy, rfl⟩ := Option.map_eq_some_iff.1 h
  exact ⟨_, _, _, _, _, .cons (Prog.interInterp_inter hx) (.nil _), Prog.interInterp_inter hy, rfl⟩

/-- What DEL executes and hands on when it finds the stored result. Test data; models no code. -/
def delKnown : List (Bytes × Bytes) :=
  [(b!"/bin/b", b!"{\"cniVersion\":\"1.0.0\",\"name\":\"net\",\"prevResult\":{\"cniVersion\":\"1.0.0\",\"dns\":{\"domain\":\"d\"}},\"type\":\"b\"}"),
       (b!"/bin/a", b!"{\"cniVersion\":\"1.0.0\",\"name\":\"net\",\"prevResult\":{\"cniVersion\":\"1.0.0\",\"dns\":{\"domain\":\"d\"}},\"type\":\"a\",\"x\":1}")]

/-- And when it finds nothing. Test data; models no code. -/
def delUnknown : List (Bytes × Bytes) :=
  [(b!"/bin/b", b!"{\"cniVersion\":\"1.0.0\",\"name\":\"net\",\"type\":\"b\"}"),
       (b!"/bin/a", b!"{\"cniVersion\":\"1.0.0\",\"name\":\"net\",\"type\":\"a\",\"x\":1}")]

/-- Two ADDs of one attachment: one has ended when everything crashes, the other one was executing plugins. After the restart DEL hands
the stored result to the plugins. -/
example : ∃ l1 fs1 l ps' fs', Epochs false [⟨twins, l1⟩] noFiles fs1 ∧
    Inter false ([Client.session [.del cfg list rt]].map Client.run) fs1 l ps' fs' ∧
    ((fs1 key, fs' key), (callsBy 0 l).execs.map (fun e => (e.path, e.stdin)), ps'.map allOk) = ((some entry, none), delKnown, [true]) :=
  two_epochs (sch1 := [(0, none), (1, none), (0, none), (1, none), (0, none), (1, none), (0, none), (0, none), (0, none), (1, none)])
    (sch2 := [(0, none), (0, none), (0, none), (0, none), (0, none), (0, none)])
    (f := fun fs1 l ps' fs' => ((fs1 key, fs' key), (callsBy 0 l).execs.map (fun e => (e.path, e.stdin)), ps'.map allOk)) (by decide +kernel)

/-- The ADD crashes in the middle of its write. After the restart DEL hands nothing to the plugins, and removes what is there. -/
example : ∃ l1 fs1 l ps' fs', Epochs false [⟨twins, l1⟩] noFiles fs1 ∧
    Inter false ([Client.session [.del cfg list rt]].map Client.run) fs1 l ps' fs' ∧
    ((fs1 key, fs' key), (callsBy 0 l).execs.map (fun e => (e.path, e.stdin)), ps'.map allOk) = ((some (entry.take 30), none), delUnknown, [true]) :=
  two_epochs (sch1 := [(0, none), (0, none), (0, none), (0, none), (0, none), (0, some 30)])
    (sch2 := [(0, none), (0, none), (0, none), (0, none), (0, none), (0, none), (0, none), (0, none)])
    (f := fun fs1 l ps' fs' => ((fs1 key, fs' key), (callsBy 0 l).execs.map (fun e => (e.path, e.stdin)), ps'.map allOk)) (by decide +kernel)

/-- Clients that leave the entry alone. -/
example : ∀ cl ∈ [Client.session [.check cfg list rt, .add cfg list rtOther], .listing cfg []], cl.StoresNot key ∧ ¬ MayRemove key cl := by
  have hk : ApiOp.key (.add cfg list rtOther) ≠ key := by decide +kernel
  simp only [List.mem_cons, List.not_mem_nil, or_false]
  rintro cl (rfl | rfl)
  · refine ⟨?_, ?_⟩
    · intro op ho hq
      simp only [List.mem_cons, List.not_mem_nil, or_false] at ho
      rcases ho with rfl | rfl
      · rfl
      · exact absurd hq hk
    · rintro ⟨op, ho, hd, -⟩
      simp only [List.mem_cons, List.not_mem_nil, or_false] at ho
      rcases ho with rfl | rfl <;> cases hd
  · exact ⟨trivial, id⟩

end Example

end Verif
