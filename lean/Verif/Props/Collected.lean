/- C72: what a garbage collection and a listing do while other clients use the same cache. -/
import Verif.Spec.Collected
import Verif.Props.Settled

namespace Verif
open Spec

variable {α β : Type} {flt : Bool}

theorem path_bind_lift {p : Prog α} {f : α → Prog β} {a : Act} {k : a.Resp → Prog α} : ∀ {tr : Trace}, Path p tr (.op a k) →
    Path (p.bind f) tr (.op a fun r => (k r).bind f) := by
  induction p with
  | done o => intro tr h; exact absurd (path_done h).2 (by simp)
  | op a' k' ih =>
    intro tr h
    cases h with
    | refl => exact .refl _
    | step h => exact .step (ih _ h)

theorem attachmentOf_mem {cid : Bytes} {r : Option Bytes} {a : Attachment} (h : a ∈ (attachmentOf cid r).toList) :
    ∃ b, r = some b ∧ entryOf b = some a := by
  rw [attachmentOf_entryOf] at h
  cases r with
  | none => simp at h
  | some b =>
    simp only [Option.mem_toList, Option.filter_eq_some_iff] at h
    exact ⟨b, rfl, h.1⟩

/-- What a listing returns was read from files. -/
theorem path_attachmentLoop {dir cid : Bytes} {names : List Bytes} : ∀ {tr : Trace} {l : List Attachment},
    Path (attachmentLoop dir cid names) tr (.done (.ok l)) → ∀ a ∈ l, ∃ q b, (⟨.readFile q, some b⟩ : Event) ∈ tr ∧ entryOf b = some a := by
  induction names with
  | nil =>
    intro tr l h a ha
    have he := (path_done h).2
    cases he
    cases ha
  | cons n names ih =>
    intro tr l h a ha
    unfold attachmentLoop at h
    split at h
    · exact ih h a ha
    · cases h with
      | @step _ _ r tr p' h =>
        obtain ⟨tr1, tr2, l', rfl, h1, h2⟩ := path_bind_done h
        have he := (path_done h2).2
        cases he
        rcases List.mem_append.1 ha with ha | ha
        · obtain ⟨b, rfl, hb⟩ := attachmentOf_mem ha
          exact ⟨_, b, List.mem_cons_self .., hb⟩
        · obtain ⟨q, b, hq, hb⟩ := ih h1 a ha
          exact ⟨q, b, List.mem_cons_of_mem _ (List.mem_append.2 (.inl hq)), hb⟩

theorem path_getCachedAttachments {c : CNIConfig} {cid : Bytes} {tr : Trace} {l : List Attachment}
    (h : Path (c.getCachedAttachments cid) tr (.done (.ok l))) : ∀ a ∈ l, ∃ q b, (⟨.readFile q, some b⟩ : Event) ∈ tr ∧ entryOf b = some a := by
  intro a ha
  unfold CNIConfig.getCachedAttachments at h
  cases h with
  | @step _ _ r tr p' h =>
    cases r with
    | error b =>
      cases b with
      | true => have he := (path_done h).2; cases he; cases ha
      | false => have he := (path_done h).2; cases he
    | ok names =>
      obtain ⟨q, b, hq, hb⟩ := path_attachmentLoop h a ha
      exact ⟨q, b, List.mem_cons_of_mem _ hq, hb⟩

theorem path_gcDelLoop {c : CNIConfig} {list : NetConfList} {valid : Option (List GCAttachment)} {a : Act} {atts : List Attachment} :
    ∀ {errs : List GoErr} {tr : Trace} {k : a.Resp → Prog (List GoErr)}, Path (c.gcDelLoop list valid atts errs) tr (.op a k) →
    ∃ x ∈ atts, Stale list.name valid x ∧ ∃ pre tr' k', tr = pre ++ tr' ∧ Path (c.delNetworkList list (rtOf x)) tr' (.op a k') := by
  induction atts with
  | nil => intro errs tr k h; exact absurd (path_done h).2 (by simp)
  | cons x atts ih =>
    intro errs tr k h
    unfold CNIConfig.gcDelLoop at h
    split at h
    · rename_i hs
      rcases path_bind_op h with ⟨k1, h1⟩ | ⟨tr1, tr2, y, rfl, -, h2⟩
      · obtain ⟨k2, h2⟩ := path_attempt_op h1
        exact ⟨x, List.mem_cons_self .., isStale_iff.1 hs, [], tr, k2, rfl, h2⟩
      · obtain ⟨x', hx', hst, pre, tr', k', rfl, hp⟩ := ih h2
        exact ⟨x', List.mem_cons_of_mem _ hx', hst, tr1 ++ pre, tr', k', (List.append_assoc ..).symm, hp⟩
    · obtain ⟨x', hx', hst, pre, tr', k', rfl, hp⟩ := ih h
      exact ⟨x', List.mem_cons_of_mem _ hx', hst, pre, tr', k', rfl, hp⟩

/-- An execution by a garbage collection. -/
theorem path_gc {c : CNIConfig} {list : NetConfList} {valid : Option (List GCAttachment)} {path stdin : Bytes} {args : PArgs} {tr : Trace}
    {k : (Act.exec path stdin args).Resp → Prog Unit} (h : Path (c.gcNetworkList list valid) tr (.op (.exec path stdin args) k)) :
    list.disableGC = false ∧
    ((∃ x q b, (⟨.readFile q, some b⟩ : Event) ∈ tr ∧ entryOf b = some x ∧ Stale list.name valid x ∧ ∃ pre tr' k', tr = pre ++ tr' ∧
        Path (c.delNetworkList list (rtOf x)) tr' (.op (.exec path stdin args) k')) ∨
      (AtLeast list.cniVersion (1, 1, 0) ∧ ∃ p ∈ list.plugins, ∀ r, GCInvoked c list.name list.cniVersion valid p ⟨path, stdin, args, r⟩)) := by
  unfold CNIConfig.gcNetworkList at h
  split at h
  · exact absurd (path_done h).2 (by simp)
  · rename_i hd
    refine ⟨by simpa using hd, ?_⟩
    obtain ⟨tr1, tr2, r, rfl, h1, h2⟩ := path_bind_right (P := fun a => a.isExec = false)
      (getCachedAttachments_looks.mono fun a h => h.2).attempt (by simp [Act.isExec]) h
    cases r with
    | error e => exact absurd (path_done h2).2 (by simp)
    | ok atts =>
      obtain ⟨o, h3, ho⟩ := path_attempt_done h1
      cases o with
      | err e => cases ho
      | panic => cases ho
      | ok atts' =>
        cases ho
        simp only at h2
        rcases path_bind_op h2 with ⟨k1, h4⟩ | ⟨tr3, tr4, errs, rfl, -, h4⟩
        · obtain ⟨x, hx, hst, pre, tr', k', rfl, hp⟩ := path_gcDelLoop h4
          obtain ⟨q, b, hq, hb⟩ := path_getCachedAttachments h3 x hx
          exact .inl ⟨x, q, b, List.mem_append.2 (.inl hq), hb, hst, tr1 ++ pre, tr', k', (List.append_assoc ..).symm, hp⟩
        · refine .inr ?_
          split at h4
          · rename_i hat
            rcases path_bind_op h4 with ⟨k1, h5⟩ | ⟨tr5, tr6, errs', rfl, -, h5⟩
            · obtain ⟨-, h6⟩ := h5.act gcLoop_looks
              obtain ⟨ha, p, hp, hb⟩ := h6 _ _ _ rfl
              exact ⟨atLeast110_iff.1 hat, p, hp, fun r => ⟨ha, hb⟩⟩
            · exact absurd (path_done h5).2 (by simp)
          · exact absurd (path_done h4).2 (by simp)

/-! ### names -/

theorem sanitizeF_mem {x : UInt8} : ∀ {n : Nat} {s : Bytes}, x ∈ sanitizeF n s → x ∈ s ∨ x = 0xEF ∨ x = 0xBF ∨ x = 0xBD := by
  intro n
  induction n with
  | zero => intro s h; cases s <;> simp [sanitizeF] at h
  | succ n ih =>
    intro s h
    cases s with
    | nil => simp [sanitizeF] at h
    | cons b r =>
      unfold sanitizeF at h
      split at h
      · simp only [List.mem_cons] at h
        rcases h with h | h | h | h
        · exact .inr (.inl h)
        · exact .inr (.inr (.inl h))
        · exact .inr (.inr (.inr h))
        · exact (ih h).imp (List.mem_cons_of_mem _) id
      · rcases List.mem_append.1 h with h | h
        · exact .inl (List.mem_of_mem_take h)
        · exact (ih h).imp List.mem_of_mem_drop id

theorem sanitize_slash {s : Bytes} (h : 47 ∉ s) : 47 ∉ sanitize s := by
  intro hm
  rcases sanitizeF_mem hm with hm | hm | hm | hm
  · exact h hm
  · cases hm
  · cases hm
  · cases hm

theorem sanitize_plain {s : Bytes} (h : s ≠ [] ∧ 47 ∉ s) : sanitize s ≠ [] ∧ 47 ∉ sanitize s :=
  ⟨fun he => h.1 (sanitize_ne_nil.1 he), sanitize_slash h.2⟩

/-! ### the theorems -/

/-- What is read as an entry was stored by an ADD. -/
theorem visible_added {clients : List Client} {q b : Bytes} {l : List (Nat × Move)} {W : Prop} (h : Visible (Entered clients l q) W b) {a : Attachment}
    (ha : entryOf b = some a) : AddedAttachment clients l a ∧ a.containerID ≠ [] ∧ 47 ∉ a.containerID ∧ 47 ∉ a.ifName ∧ 47 ∉ a.network := by
  obtain ⟨content, ⟨op, r, conf, info, hop, hi, rfl, hk, had, has⟩, hc⟩ := h
  rcases hc with rfl | ⟨-, ht⟩
  · obtain ⟨caps, -, hent⟩ := entryOf_entry hop.ok hi (fun kv hkv => (hop.caps kv hkv).2) hop.names
    rw [hent] at ha
    cases ha
    refine ⟨⟨op, r, _, ⟨rfl, rfl, rfl, rfl, rfl, had⟩, has fun _ => none⟩, (sanitize_plain hop.names.cid).1, (sanitize_plain hop.names.cid).2,
      (sanitize_plain hop.names.ifn).2, (sanitize_plain hop.names.name).2⟩
  · rw [entryOf_bad (cachedInfo_torn hop.ok hi ht)] at ha
    cases ha

theorem entry_added {clients : List Client} (hp : ∀ cl ∈ clients, cl.Proper) {q b : Bytes} {fs fs' : FS} {l : List (Nat × Move)}
    {ps' : List (Prog Ended)} (h : Inter flt (clients.map Client.run) fs l ps' fs') (h0 : fs q = none) {i : Nat}
    (hb : (i, Move.call ⟨.readFile q, some b⟩) ∈ l) {a : Attachment} (ha : entryOf b = some a) :
    AddedAttachment clients l a ∧ a.containerID ≠ [] ∧ 47 ∉ a.containerID ∧ 47 ∉ a.ifName ∧ 47 ∉ a.network :=
  visible_added (reads_visible hp h h0 i b hb) ha

/-- Clients use the API concurrently, with any behaviour of the plugins; files may fail and writes may be seen before they are
finished. Everything a garbage collection executes is a DEL of a plugin of the list, for an attachment of the network that is not
among the valid ones and that some client has added before, with the arguments of that ADD, and with a previous result that is what an
ADD on that attachment has stored, if any (see C70); or, from version 1.1.0, a GC of a plugin of the list with all valid attachments. -/
theorem c72_gc (clients : List Client) (hp : ∀ cl ∈ clients, cl.Proper) (fs fs' : FS) (h0 : ∀ q, fs q = none)
    (l l2 : List (Nat × Move)) (ps' : List (Prog Ended)) (i : Nat) (c : CNIConfig) (list : NetConfList) (valid : Option (List GCAttachment))
    (hi : clients[i]? = some (.gc c list valid)) (path stdin : Bytes) (args : PArgs) (resp : Except GoErr Bytes)
    (h : Inter flt (clients.map Client.run) fs (l ++ (i, .call ⟨.exec path stdin args, resp⟩) :: l2) ps' fs') :
    list.disableGC = false ∧
    ((∃ a prev, CollectedDel c list valid (callsBy i l) a prev ⟨path, stdin, args, resp⟩ ∧ AddedAttachment clients l a ∧
        Found flt clients l (.del c list (rtOf a)) prev) ∨
      (AtLeast list.cniVersion (1, 1, 0) ∧ ∃ p ∈ list.plugins,
        GCInvoked c list.name list.cniVersion valid p ⟨path, stdin, args, resp⟩)) := by
  obtain ⟨mid, now, k, h1, hk⟩ := inter_before h
  obtain ⟨p', hp', hpath⟩ := inter_path h1 i (p := (Client.gc c list valid).run) (by rw [List.getElem?_map, hi]; rfl)
  rw [hk] at hp'
  cases hp'
  obtain ⟨k1, h2⟩ := path_reply hpath
  obtain ⟨k2, h3⟩ := path_attempt_op h2
  obtain ⟨hd, h4⟩ := path_gc h3
  refine ⟨hd, ?_⟩
  rcases h4 with ⟨a, q, b, hq, hb, hst, pre, tr, k', htr, hdel⟩ | ⟨hat, p, hm, hg⟩
  · refine .inl ?_
    obtain ⟨hadd, n1, n2, n3, n4⟩ := entry_added hp h1 (h0 q) (mem_callsBy hq) hb
    obtain ⟨hok, m1, m2⟩ := entryOf_ok hb
    have hn : PlainNames list.name (rtOf a) := by rw [← hst.1]; exact ⟨⟨m1, n4⟩, ⟨n1, n2⟩, ⟨m2, n3⟩⟩
    obtain ⟨verb, p, prev, hverb, hmem, hinv, -, hread⟩ := path_exec (op := .del c list (rtOf a)) hok hn (path_bind_lift hdel) resp
    cases hverb
    have sub : ∀ e ∈ tr, e ∈ callsBy i l := fun e he => by rw [htr]; exact List.mem_append.2 (.inr he)
    exact ⟨a, prev, ⟨hst, p, hmem, invoked_mono hinv sub⟩, hadd, readings_found (op := .del c list (rtOf a)) hn (fun b hb =>
      reads_visible hp h1 (h0 _) i b (mem_callsBy (sub _ hb))) (hread rfl)⟩
  · exact .inr ⟨hat, p, hm, hg resp⟩

/-- In the same situation, every attachment that a listing that has ended has returned, has been added by some client. -/
theorem c72_listing (clients : List Client) (hp : ∀ cl ∈ clients, cl.Proper) (fs fs' : FS) (h0 : ∀ q, fs q = none)
    (l : List (Nat × Move)) (ps' : List (Prog Ended)) (i : Nat) (c : CNIConfig) (cid : Bytes) (hi : clients[i]? = some (.listing c cid))
    (h : Inter flt (clients.map Client.run) fs l ps' fs') (atts : List Attachment) (hd : ps'[i]? = some (.done (.ok (.listing (.ok atts))))) :
    ∀ a ∈ atts, AddedAttachment clients l a := by
  intro a ha
  obtain ⟨p', hp', hpath⟩ := inter_path h i (p := (Client.listing c cid).run) (by rw [List.getElem?_map, hi]; rfl)
  rw [hd] at hp'
  cases hp'
  obtain ⟨tr1, tr2, x, htr, h1, h2⟩ := path_bind_done hpath
  have he := (path_done h2).2
  cases he
  obtain ⟨o, h3, ho⟩ := path_attempt_done h1
  cases o with
  | err e => cases ho
  | panic => cases ho
  | ok atts' =>
    cases ho
    obtain ⟨q, b, hq, hb⟩ := path_getCachedAttachments h3 a ha
    exact (entry_added hp h (h0 q) (mem_callsBy (by rw [htr]; exact List.mem_append.2 (.inl hq))) hb).1

namespace Example

/-- The step is a call that changes no file but this one. Observation in tests; models no code. -/
def onlyAt (q : Bytes) : Move → Bool
  | .call e => decide (e.act.writes = none ∨ e.act.writes = some q)
  | .part _ => false

theorem inter_onlyAt {α : Type} {ps ps' : List (Prog α)} {fs fs' : FS} {l : List (Nat × Move)} (h : Inter false ps fs l ps' fs') {q0 : Bytes} :
    (l.all fun x => onlyAt q0 x.2) = true → fs' = FS.set fs q0 (fs' q0) := by
  induction h with
  | refl ps fs =>
    intro _
    funext q
    by_cases hq : q = q0
    · subst hq; rw [FS.set_same]
    · rw [FS.set_other _ _ hq]
  | @call ps ps' j a k fs fs1 fs' r l hi hs h ih =>
    intro hl
    simp only [List.all_cons, Bool.and_eq_true, onlyAt, decide_eq_true_eq] at hl
    rw [ih hl.2]
    funext q
    by_cases hq : q = q0
    · subst hq; rw [FS.set_same, FS.set_same]
    · rw [FS.set_other _ _ hq, FS.set_other _ _ hq]
      refine step_frame hs ?_
      rcases hl.1 with h | h <;> rw [h]
      · simp
      · simpa using Ne.symm hq
  | part => intro hl; simp [onlyAt] at hl

/-- A garbage collection, an ADD and a listing. Test data; models no code. -/
def around (valid : Option (List GCAttachment)) : List Client := [.gc cfg list11 valid, .session [.add cfg list rt], .listing cfg []]

theorem around_proper (valid : Option (List GCAttachment)) : ∀ cl ∈ around valid, cl.Proper := by
  have hn : PlainNames list.name rt := ⟨by decide +kernel, by decide +kernel, by decide +kernel⟩
  simp only [around, List.mem_cons, List.not_mem_nil, or_false]
  rintro cl (rfl | rfl | rfl)
  · trivial
  · simp only [Client.Proper, List.mem_cons, List.not_mem_nil, or_false]
    rintro op rfl
    exact ⟨hn, (by intro kv h; cases h), rt_ok.sorted⟩
  · trivial

/-- The first steps, up to where program `i` reads the directory, in which there is one file then, and the other steps. -/
theorem inter_thenDir {α β : Type} {find : Bytes → Except GoErr Bytes} {exec : Bytes → Bytes → PArgs → Except GoErr Bytes} {ps : List (Prog α)}
    {sch1 sch : List (Nat × Option Nat)} (i : Nat) (f : List (Nat × Move) → List (Prog α) → FS → β) {b : β}
    (h : ((Prog.interInterp find exec sch1 ps noFiles).bind fun x => if (x.1.all fun m => onlyAt key m.2) = true then
      ((x.2.1[i]?.bind fun p => p.afterDir b!"/cache/results" [b!"net-c1-eth0"]).bind fun p =>
        Prog.interInterp find exec sch (x.2.1.set i p) (FS.set noFiles key (x.2.2 key))).map
        (fun y => f y.1 y.2.1 y.2.2) else none) = some b) :
    ∃ l l2 ps' fs', Inter false ps noFiles (l ++ l2) ps' fs' ∧ f l2 ps' fs' = b := by
  obtain ⟨x, hx, h⟩ := Option.bind_eq_some_iff.1 h
  split at h
  · rename_i honly
    have h1 := Prog.interInterp_inter (flt := false) hx
    have hfs := inter_onlyAt h1 honly
    obtain ⟨y, hy, rfl⟩ := Option.map_eq_some_iff.1 h
    obtain ⟨q, hq0, hy⟩ := Option.bind_eq_some_iff.1 hy
    obtain ⟨p, hp, hq⟩ := Option.bind_eq_some_iff.1 hq0
    have trans : ∀ {ps ps1 ps2 : List (Prog α)} {fs fs1 fs2 : FS} {l1 l2 : List (Nat × Move)}, Inter false ps fs l1 ps1 fs1 →
        Inter false ps1 fs1 l2 ps2 fs2 → Inter false ps fs (l1 ++ l2) ps2 fs2 := by
      intro ps ps1 ps2 fs fs1 fs2 l1 l2 ha hb
      induction ha with
      | refl => exact hb
      | call hi hs _ ih => exact .call hi hs (ih hb)
      | part hi n _ ih => exact .part hi n (ih hb)
    cases p with
    | done o => cases hq
    | op a k =>
      cases a with
      | readDir d' =>
        simp only [Prog.afterDir] at hq
        split at hq
        · rename_i hd
          subst hd
          cases hq
          have h2 := Prog.interInterp_inter (flt := false) hy
          rw [hfs] at h1
          have h3 := Inter.call hp (.readDir _ _ _ (Example.lists _)) h2
          exact ⟨x.1 ++ [(i, .call ⟨.readDir _, (.ok [b!"net-c1-eth0"] : Except Bool (List Bytes))⟩)], y.1, _, _, by
            rw [List.append_assoc]; exact trans h1 h3, rfl⟩
        · cases hq
      | _ => cases hq
  · cases h

/-- The ADD has stored its entry when the garbage collection lists the directory: it deletes the attachment, with the result of the ADD. -/
example : ∃ l l2 ps' fs', Inter false ((around none).map Client.run) noFiles (l ++ l2) ps' fs' ∧
    executed 0 l2 = [(b!"/bin/b", b!"{\"cniVersion\":\"1.1.0\",\"name\":\"net\",\"prevResult\":{\"cniVersion\":\"1.1.0\",\"dns\":{\"domain\":\"d\"}},\"type\":\"b\"}")] :=
  inter_thenDir (find := find) (exec := good) (sch1 := [(1, none), (1, none), (1, none), (1, none), (1, none), (1, none)])
    (sch := [(0, none), (0, none), (0, none), (0, none)]) 0 (fun l _ _ => executed 0 l) (by decide +kernel)

/-- The attachment is valid: only the plugins' GC is executed. -/
example : ∃ l l2 ps' fs', Inter false ((around (some [⟨b!"c1", b!"eth0"⟩])).map Client.run) noFiles (l ++ l2) ps' fs' ∧
    executed 0 l2 = [(b!"/bin/a", b!"{\"cni.dev/attachments\":[{\"containerID\":\"c1\",\"ifname\":\"eth0\"}],\"cni.dev/valid-attachments\":[{\"containerID\":\"c1\",\"ifname\":\"eth0\"}],\"cniVersion\":\"1.1.0\",\"name\":\"net\",\"type\":\"a\",\"x\":1}")] :=
  inter_thenDir (find := find) (exec := good) (sch1 := [(1, none), (1, none), (1, none), (1, none), (1, none), (1, none)])
    (sch := [(0, none), (0, none), (0, none)]) 0 (fun l _ _ => executed 0 l) (by decide +kernel)

/-- A listing that ends with the attachment. -/
example : ∃ l l2 ps' fs', Inter false ((around none).map Client.run) noFiles (l ++ l2) ps' fs' ∧
    (ps'.map fun p => p.outcome?.map listed) = [none, some [], some [(b!"net", b!"c1")]] :=
  inter_thenDir (find := find) (exec := good) (sch1 := [(1, none), (1, none), (1, none), (1, none), (1, none), (1, none)])
    (sch := [(2, none)]) 2 (fun _ ps' _ => ps'.map fun p => p.outcome?.map listed) (by decide +kernel)

end Example

end Verif
