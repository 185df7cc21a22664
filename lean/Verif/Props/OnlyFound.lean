/- C67: only what is found on the search path is executed. -/
import Verif.Spec.OnlyFound
import Verif.Props.Exec
import Verif.Props.Gc
import Verif.Libcni.Local

namespace Verif
open Spec

variable {α β : Type} {flt : Bool} {T : Bytes → Prop} {P : List Bytes}

/-- What the last call has found. Proof device: models no code. -/
def justFound : Except GoErr Bytes → Option Bytes
  | .ok p => some p
  | .error _ => none

/-- Searches are for names in `T` on the path `P`, and only what the last call has found is executed. Proof device: models no
code. -/
def Prog.Guarded (T : Bytes → Prop) (P : List Bytes) : Option Bytes → Prog α → Prop
  | _, .done _ => True
  | _, .op (.find n ps) k => T n ∧ ps = P ∧ ∀ r, Prog.Guarded T P (justFound r) (k r)
  | last, .op (.exec p _ _) k => last = some p ∧ ∀ r, Prog.Guarded T P none (k r)
  | _, .op (.readFile _) k => ∀ r, Prog.Guarded T P none (k r)
  | _, .op (.readDir _) k => ∀ r, Prog.Guarded T P none (k r)
  | _, .op (.mkdirAll _) k => ∀ r, Prog.Guarded T P none (k r)
  | _, .op (.writeFile _ _) k => ∀ r, Prog.Guarded T P none (k r)
  | _, .op (.remove _) k => ∀ r, Prog.Guarded T P none (k r)

theorem Prog.Guarded.any {p : Prog α} (h : p.Guarded T P none) (last : Option Bytes) : p.Guarded T P last := by
  cases p with
  | done _ => trivial
  | op a k =>
    cases a with
    | exec => exact absurd h.1 (by simp)
    | _ => exact h

theorem Prog.Guarded.bind {p : Prog α} {f : α → Prog β} : ∀ {last}, p.Guarded T P last → (∀ a, (f a).Guarded T P none) →
    (p.bind f).Guarded T P last := by
  induction p with
  | done o =>
    intro last _ hf
    cases o with
    | ok a => exact (hf a).any last
    | err _ => trivial
    | panic => trivial
  | op a k ih =>
    intro last h hf
    cases a with
    | find => exact ⟨h.1, h.2.1, fun r => ih r (h.2.2 r) hf⟩
    | exec => exact ⟨h.1, fun r => ih r (h.2 r) hf⟩
    | _ => exact fun r => ih r (h r) hf

theorem Prog.Guarded.attempt {p : Prog α} : ∀ {last}, p.Guarded T P last → p.attempt.Guarded T P last := by
  induction p with
  | done o => intro last _; cases o <;> trivial
  | op a k ih =>
    intro last h
    cases a with
    | find => exact ⟨h.1, h.2.1, fun r => ih r (h.2.2 r)⟩
    | exec => exact ⟨h.1, fun r => ih r (h.2 r)⟩
    | _ => exact fun r => ih r (h r)

theorem Prog.Guarded.mapErr {p : Prog α} {g : GoErr → GoErr} : ∀ {last}, p.Guarded T P last → (p.mapErr g).Guarded T P last := by
  induction p with
  | done o => intro last _; cases o <;> trivial
  | op a k ih =>
    intro last h
    cases a with
    | find => exact ⟨h.1, h.2.1, fun r => ih r (h.2.2 r)⟩
    | exec => exact ⟨h.1, fun r => ih r (h.2 r)⟩
    | _ => exact fun r => ih r (h r)

theorem guarded_find {t : Bytes} {f : Bytes → Prog α} {last : Option Bytes} (ht : T t) (hf : ∀ path, (f path).Guarded T P (some path)) :
    ((findPlugin t P).bind f).Guarded T P last := by
  refine ⟨ht, rfl, fun r => ?_⟩
  cases r with
  | ok p => exact hf p
  | error _ => trivial

theorem guarded_lift {o : Out α} {f : α → Prog β} {last : Option Bytes} (hf : ∀ a, (f a).Guarded T P last) :
    ((Prog.lift o).bind f).Guarded T P last := by
  cases o with
  | ok a => exact hf a
  | err _ => trivial
  | panic => trivial

theorem guarded_exec {path conf : Bytes} {args : PArgs} : (execWithResult path conf args).Guarded T P (some path) :=
  ⟨rfl, fun r => by cases r <;> trivial⟩

theorem guarded_exec' {path conf : Bytes} {args : PArgs} : (execWithoutResult path conf args).Guarded T P (some path) :=
  ⟨rfl, fun r => by cases r <;> trivial⟩

/-! ### the calls of a guarded program -/

/-- The calls of a program that is about to execute only `last`. Proof device: models no code. -/
structure GuardedTrace (T : Bytes → Prop) (P : List Bytes) (last : Option Bytes) (tr : Trace) : Prop where
  searched : ∀ (i : Nat) (n : Bytes) (ps : List Bytes) (r : Except GoErr Bytes), tr[i]? = some ⟨.find n ps, r⟩ → T n ∧ ps = P
  executed : ∀ (i : Nat) (path stdin : Bytes) (args : PArgs) (r : Except GoErr Bytes), tr[i]? = some ⟨.exec path stdin args, r⟩ → (i = 0 ∧ last = some path) ∨
    ∃ j t, i = j + 1 ∧ T t ∧ tr[j]? = some ⟨.find t P, (.ok path : Except GoErr Bytes)⟩

theorem guardedTrace_nil {last : Option Bytes} : GuardedTrace T P last [] :=
  ⟨fun i n ps r h => by simp at h, fun i path stdin args r h => by simp at h⟩

theorem guardedTrace_cons {a : Act} {r : a.Resp} {k : a.Resp → Prog α} {last : Option Bytes} {tr : Trace}
    (h : Prog.Guarded T P last (.op a k))
    (ih : ∀ {last}, (k r).Guarded T P last → GuardedTrace T P last tr) : GuardedTrace T P last (⟨a, r⟩ :: tr) := by
  have other : (∀ n ps, a ≠ .find n ps) → (∀ p i x, a ≠ .exec p i x) → (k r).Guarded T P none → GuardedTrace T P last (⟨a, r⟩ :: tr) := by
    intro h1 h2 hk
    have hg := ih hk
    refine ⟨fun i n ps x hx => ?_, fun i path stdin args x hx => ?_⟩
    · cases i with
      | zero =>
        have ha := congrArg Event.act (Option.some.inj hx)
        exact absurd ha (h1 _ _)
      | succ i => exact hg.searched i n ps x (by simpa using hx)
    · cases i with
      | zero =>
        have ha := congrArg Event.act (Option.some.inj hx)
        exact absurd ha (h2 _ _ _)
      | succ i =>
        rcases hg.executed i path stdin args x (by simpa using hx) with ⟨_, h⟩ | ⟨j, t, rfl, ht, hj⟩
        · cases h
        · exact .inr ⟨j + 1, t, rfl, ht, by simpa using hj⟩
  cases a with
  | find n ps =>
    obtain ⟨hn, rfl, hk⟩ := h
    have hg := ih (hk r)
    refine ⟨fun i n' ps' x hx => ?_, fun i path stdin args x hx => ?_⟩
    · cases i with
      | zero =>
        have ha := congrArg Event.act (Option.some.inj hx)
        simp only [Act.find.injEq] at ha
        exact ⟨ha.1 ▸ hn, ha.2.symm⟩
      | succ i => exact hg.searched i n' ps' x (by simpa using hx)
    · cases i with
      | zero =>
        have ha := congrArg Event.act (Option.some.inj hx)
        cases ha
      | succ i =>
        rcases hg.executed i path stdin args x (by simpa using hx) with ⟨rfl, h⟩ | ⟨j, t, rfl, ht, hj⟩
        · refine .inr ⟨0, n, rfl, hn, ?_⟩
          cases r with
          | ok q => simp only [justFound, Option.some.injEq] at h; rw [h]; rfl
          | error _ => cases h
        · exact .inr ⟨j + 1, t, rfl, ht, by simpa using hj⟩
  | exec p i x =>
    obtain ⟨hl, hk⟩ := h
    have hg := ih (hk r)
    refine ⟨fun i' n' ps' x' hx => ?_, fun i' path stdin args x' hx => ?_⟩
    · cases i' with
      | zero =>
        have ha := congrArg Event.act (Option.some.inj hx)
        cases ha
      | succ i' => exact hg.searched i' n' ps' x' (by simpa using hx)
    · cases i' with
      | zero =>
        have ha := congrArg Event.act (Option.some.inj hx)
        simp only [Act.exec.injEq] at ha
        exact .inl ⟨rfl, by rw [hl, ha.1]⟩
      | succ i' =>
        rcases hg.executed i' path stdin args x' (by simpa using hx) with ⟨_, h⟩ | ⟨j, t, rfl, ht, hj⟩
        · cases h
        · exact .inr ⟨j + 1, t, rfl, ht, by simpa using hj⟩
  | _ => exact other (by intro _ _ h; cases h) (by intro _ _ _ h; cases h) (h r)

theorem Prog.Guarded.runs {p : Prog α} {fs fs' : FS} {tr : Trace} {o : Out α} (h : Runs flt p fs tr fs' o) :
    ∀ {last}, p.Guarded T P last → GuardedTrace T P last tr := by
  induction h with
  | done => intro last _; exact guardedTrace_nil
  | op hs hr ih => intro last hg; exact guardedTrace_cons hg ih

theorem Prog.Guarded.crash {p : Prog α} {fs fs' : FS} {tr : Trace} (h : Crash flt p fs tr fs') :
    ∀ {last}, p.Guarded T P last → GuardedTrace T P last tr := by
  induction h with
  | now => intro last _; exact guardedTrace_nil
  | tear => intro last _; exact guardedTrace_nil
  | step hs hr ih => intro last hg; exact guardedTrace_cons hg ih

theorem Prog.Guarded.onlyFound {p : Prog α} {fs : FS} {tr : Trace} {types : List Bytes} (hg : p.Guarded (· ∈ types) P none)
    (h : Happens flt p fs tr) {exts : List Bytes} {w : Nat → Bytes → Bool} (hw : DefaultSearch exts w tr) : OnlyFound exts w types P tr := by
  have ht : GuardedTrace (· ∈ types) P none tr := by
    rcases h with ⟨fs', o, h⟩ | ⟨fs', h⟩
    · exact hg.runs h
    · exact hg.crash h
  refine ⟨ht.searched, fun i path stdin args r hi => ?_⟩
  rcases ht.executed i path stdin args r hi with ⟨_, h⟩ | ⟨j, t, rfl, ht, hj⟩
  · cases h
  · exact ⟨j, t, rfl, ht, hj, (c44_find_iff _ _ _ _ _).1 (hw j t P _ hj).symm⟩

/-! ### the operations are guarded -/

section
variable {c : CNIConfig} {list : NetConfList} {net : PluginConfig} {rt : RuntimeConf} {name ver : Bytes}

theorem addNetwork1_guarded {prev : Option Result} (ht : T net.network.type) : (c.addNetwork1 name ver net prev rt).Guarded T c.path none := by
  unfold CNIConfig.addNetwork1
  simp only [prog_bind_eq]
  exact guarded_find ht fun _ => guarded_lift fun _ => guarded_lift fun _ => guarded_exec

theorem addLoop_guarded {ps : List PluginConfig} : ∀ {prev : Option Result}, (∀ p ∈ ps, T p.network.type) →
    (c.addLoop name ver rt ps prev).Guarded T c.path none := by
  induction ps with
  | nil => intro prev _; trivial
  | cons p ps ih =>
    intro prev h
    exact (addNetwork1_guarded (h p (by simp))).mapErr.bind fun _ => ih fun q hq => h q (by simp [hq])

theorem runNetwork1_guarded {verb : Bytes} {prev : Option Result} (ht : T net.network.type) :
    (c.runNetwork1 verb name ver net prev rt).Guarded T c.path none := by
  unfold CNIConfig.runNetwork1
  simp only [prog_bind_eq]
  exact guarded_find ht fun _ => guarded_lift fun _ => guarded_exec'

theorem checkLoop_guarded {prev : Option Result} {ps : List PluginConfig} (h : ∀ p ∈ ps, T p.network.type) :
    (c.checkLoop name ver prev rt ps).Guarded T c.path none := by
  induction ps with
  | nil => trivial
  | cons p ps ih => exact (runNetwork1_guarded (h p (by simp))).bind fun _ => ih fun q hq => h q (by simp [hq])

theorem delLoop_guarded {prev : Option Result} {ps : List PluginConfig} (h : ∀ p ∈ ps, T p.network.type) :
    (c.delLoop name ver prev rt ps).Guarded T c.path none := by
  induction ps with
  | nil => trivial
  | cons p ps ih => exact (runNetwork1_guarded (h p (by simp))).mapErr.bind fun _ => ih fun q hq => h q (by simp [hq])

theorem bareNetwork1_guarded {verb : Bytes} (ht : T net.network.type) : (c.bareNetwork1 verb net).Guarded T c.path none := by
  unfold CNIConfig.bareNetwork1
  simp only [prog_bind_eq]
  exact guarded_find ht fun _ => guarded_exec'

theorem cacheAdd_guarded {result : Option Result} {config : Bytes} : (c.cacheAdd result config name rt).Guarded T P none := by
  unfold CNIConfig.cacheAdd
  split
  · trivial
  · split
    · intro r
      cases r with
      | false => trivial
      | true => intro r; cases r <;> trivial
    · trivial
    · trivial

theorem cacheDel_guarded : (c.cacheDel name rt).Guarded T P none := by
  unfold CNIConfig.cacheDel
  split
  · intro r; cases r <;> trivial
  · trivial

theorem getCachedResult_guarded : (c.getCachedResult name ver rt).Guarded T P none := by
  unfold CNIConfig.getCachedResult
  split
  · intro r
    cases r with
    | none => trivial
    | some b =>
      simp only
      split
      · intro r; trivial
      · trivial
  · trivial
  · trivial

theorem getCachedConfig_guarded : (c.getCachedConfig name rt).Guarded T P none := by
  unfold CNIConfig.getCachedConfig
  split
  · intro r; trivial
  · trivial
  · trivial

theorem attachmentLoop_guarded {dir cid : Bytes} {l : List Bytes} : (attachmentLoop dir cid l).Guarded T P none := by
  induction l with
  | nil => trivial
  | cons x l ih =>
    unfold attachmentLoop
    split
    · exact ih
    · intro r; exact ih.bind fun _ => trivial

theorem getCachedAttachments_guarded {cid : Bytes} : (c.getCachedAttachments cid).Guarded T P none := by
  intro r
  cases r with
  | error b => cases b <;> trivial
  | ok _ => exact attachmentLoop_guarded

theorem addNetworkList_guarded (h : ∀ p ∈ list.plugins, T p.network.type) : (c.addNetworkList list rt).Guarded T c.path none := by
  unfold CNIConfig.addNetworkList
  simp only [prog_bind_eq]
  exact (addLoop_guarded h).bind fun _ => cacheAdd_guarded.mapErr.bind fun _ => trivial

theorem checkNetworkList_guarded (h : ∀ p ∈ list.plugins, T p.network.type) : (c.checkNetworkList list rt).Guarded T c.path none := by
  unfold CNIConfig.checkNetworkList
  split
  · trivial
  · trivial
  · trivial
  · split
    · trivial
    · exact getCachedResult_guarded.mapErr.bind fun _ => checkLoop_guarded h

theorem delNetworkList_guarded (h : ∀ p ∈ list.plugins, T p.network.type) : (c.delNetworkList list rt).Guarded T c.path none := by
  have hrest : ∀ prev, ((c.delLoop list.name list.cniVersion prev rt list.plugins.reverse).bind
      fun _ => (c.cacheDel list.name rt).attempt.bind fun _ => .done (.ok ())).Guarded T c.path none :=
    fun prev => (delLoop_guarded fun p hp => h p (by simpa using hp)).bind fun _ => cacheDel_guarded.attempt.bind fun _ => trivial
  unfold CNIConfig.delNetworkList
  simp only
  split
  · trivial
  · trivial
  · exact hrest none
  · refine Prog.Guarded.bind ?_ hrest
    refine getCachedResult_guarded.attempt.bind fun r => ?_
    cases r with
    | ok _ => trivial
    | error _ => exact cacheDel_guarded.attempt.bind fun _ => trivial

theorem addNetwork_guarded (ht : T net.network.type) : (c.addNetwork net rt).Guarded T c.path none := by
  unfold CNIConfig.addNetwork
  simp only [prog_bind_eq]
  exact (addNetwork1_guarded ht).bind fun _ => cacheAdd_guarded.mapErr.bind fun _ => trivial

theorem checkNetwork_guarded (ht : T net.network.type) : (c.checkNetwork net rt).Guarded T c.path none := by
  unfold CNIConfig.checkNetwork
  split
  · trivial
  · trivial
  · trivial
  · exact getCachedResult_guarded.mapErr.bind fun _ => runNetwork1_guarded ht

theorem delNetwork_guarded (ht : T net.network.type) : (c.delNetwork net rt).Guarded T c.path none := by
  have hrest : ∀ prev, ((c.runNetwork1 b!"DEL" net.network.name net.network.cniVersion net prev rt).bind
      fun _ => (c.cacheDel net.network.name rt).attempt.bind fun _ => .done (.ok ())).Guarded T c.path none :=
    fun prev => (runNetwork1_guarded ht).bind fun _ => cacheDel_guarded.attempt.bind fun _ => trivial
  unfold CNIConfig.delNetwork
  simp only
  split
  · trivial
  · trivial
  · exact hrest none
  · exact getCachedResult_guarded.mapErr.bind hrest

theorem getVersionInfoAt_guarded {path : Bytes} : (getVersionInfoAt path).Guarded T P (some path) := ⟨rfl, fun _ => trivial⟩

theorem validatePlugin_guarded {t v : Bytes} (ht : T t) : (c.validatePlugin t v).Guarded T c.path none := by
  unfold CNIConfig.validatePlugin
  simp only [prog_bind_eq]
  exact guarded_find ht fun _ => getVersionInfoAt_guarded.bind fun _ => trivial

theorem validateLoop_guarded {ps : List PluginConfig} (h : ∀ p ∈ ps, T p.network.type) :
    ∀ {errs : List GoErr} {caps : GoMap Unit}, (c.validateLoop ver ps errs caps).Guarded T c.path none := by
  induction ps with
  | nil => intros; trivial
  | cons p ps ih =>
    intros
    exact (validatePlugin_guarded (h p (by simp))).attempt.bind fun _ => ih fun q hq => h q (by simp [hq])

theorem validateNetworkList_guarded (h : ∀ p ∈ list.plugins, T p.network.type) : (c.validateNetworkList list).Guarded T c.path none := by
  unfold CNIConfig.validateNetworkList
  refine (validateLoop_guarded h).bind fun st => ?_
  split <;> trivial

theorem gcDelLoop_guarded {valid : Option (List GCAttachment)} (h : ∀ p ∈ list.plugins, T p.network.type) {l : List Attachment} :
    ∀ {errs : List GoErr}, (c.gcDelLoop list valid l errs).Guarded T c.path none := by
  induction l with
  | nil => intros; trivial
  | cons a l ih =>
    intros
    unfold CNIConfig.gcDelLoop
    split
    · exact (delNetworkList_guarded h).attempt.bind fun _ => ih
    · exact ih

theorem gcLoop_guarded {valid : Option (List GCAttachment)} {ps : List PluginConfig} (h : ∀ p ∈ ps, T p.network.type ∧ Sound p) :
    ∀ {errs : List GoErr}, (c.gcLoop name ver valid ps errs).Guarded T c.path none := by
  induction ps with
  | nil => intros; trivial
  | cons p ps ih =>
    intros
    obtain ⟨conf, hconf, ht⟩ := Sound_inject (h p (by simp)).2 name ver valid
    unfold CNIConfig.gcLoop
    rw [hconf]
    exact (bareNetwork1_guarded (by rw [ht]; exact (h p (by simp)).1)).attempt.bind fun _ => ih fun q hq => h q (by simp [hq])

theorem gcNetworkList_guarded {valid : Option (List GCAttachment)} (h : ∀ p ∈ list.plugins, T p.network.type ∧ Sound p) :
    (c.gcNetworkList list valid).Guarded T c.path none := by
  unfold CNIConfig.gcNetworkList
  split
  · trivial
  · refine getCachedAttachments_guarded.attempt.bind fun r => ?_
    cases r with
    | error _ => trivial
    | ok atts =>
      refine (gcDelLoop_guarded fun p hp => (h p hp).1).bind fun errs => ?_
      split
      · exact (gcLoop_guarded h).bind fun _ => trivial
      · trivial

theorem statusLoop_guarded {ps : List PluginConfig} (h : ∀ p ∈ ps, T p.network.type ∧ Sound p) :
    (c.statusLoop name ver ps).Guarded T c.path none := by
  induction ps with
  | nil => trivial
  | cons p ps ih =>
    obtain ⟨conf, hconf, ht⟩ := Sound_inject (h p (by simp)).2 name ver none
    unfold CNIConfig.statusLoop
    rw [hconf]
    exact (bareNetwork1_guarded (by rw [ht]; exact (h p (by simp)).1)).bind fun _ => ih fun q hq => h q (by simp [hq])

end

/-- C67: in every execution of every entry point, interrupted or not, whatever plugins and file operations do and however the files
change meanwhile, only regular files are executed that a search for one of the network's plugin types in the configured directories has
just found, as its first match. -/
theorem c67_only_found (op : EntryPoint) (hs : op.SameTypes) (fs : FS) (tr : Trace) (h : op.Happens flt fs tr)
    (exts : List Bytes) (w : Nat → Bytes → Bool) (hw : DefaultSearch exts w tr) : OnlyFound exts w op.types op.paths tr := by
  have mem : ∀ (l : NetConfList), ∀ p ∈ l.plugins, p.network.type ∈ l.plugins.map fun p => p.network.type :=
    fun l p hp => List.mem_map.2 ⟨p, hp, rfl⟩
  cases op with
  | addList c l rt => exact (addNetworkList_guarded (mem l)).onlyFound h hw
  | checkList c l rt => exact (checkNetworkList_guarded (mem l)).onlyFound h hw
  | delList c l rt => exact (delNetworkList_guarded (mem l)).onlyFound h hw
  | add c n rt => exact (addNetwork_guarded (List.mem_singleton.2 rfl)).onlyFound h hw
  | check c n rt => exact (checkNetwork_guarded (List.mem_singleton.2 rfl)).onlyFound h hw
  | del c n rt => exact (delNetwork_guarded (List.mem_singleton.2 rfl)).onlyFound h hw
  | gc c l v => exact (gcNetworkList_guarded fun p hp => ⟨mem l p hp, hs p hp⟩).onlyFound h hw
  | status c l =>
    refine Prog.Guarded.onlyFound ?_ h hw
    unfold CNIConfig.getStatusNetworkList
    split
    · exact statusLoop_guarded fun p hp => ⟨mem l p hp, hs p hp⟩
    · trivial
  | validateList c l => exact (validateNetworkList_guarded (mem l)).onlyFound h hw
  | validate c n =>
    exact ((validatePlugin_guarded (List.mem_singleton.2 rfl)).bind fun _ => trivial : (c.validateNetwork n).Guarded _ _ _).onlyFound h hw
  | versionInfo c t =>
    exact (guarded_find (List.mem_singleton.2 rfl) fun _ => getVersionInfoAt_guarded : (c.getVersionInfo t).Guarded _ _ _).onlyFound h hw
  | cachedResult c l rt => exact (getCachedResult_guarded : (c.getNetworkListCachedResult l rt).Guarded _ _ _).onlyFound h hw
  | cachedConfig c l rt => exact (getCachedConfig_guarded : (c.getNetworkListCachedConfig l rt).Guarded _ _ _).onlyFound h hw
  | cachedAttachments c i => exact getCachedAttachments_guarded.onlyFound h hw
  | delegateAdd env p n =>
    exact (guarded_find (List.mem_singleton.2 rfl) fun _ => guarded_exec : (Verif.delegateAdd env p n).Guarded _ _ _).onlyFound h hw
  | delegateCheck env p n =>
    exact (guarded_find (List.mem_singleton.2 rfl) fun _ => guarded_exec' : (Verif.delegateCheck env p n).Guarded _ _ _).onlyFound h hw
  | delegateDel env p n =>
    exact (guarded_find (List.mem_singleton.2 rfl) fun _ => guarded_exec' : (Verif.delegateDel env p n).Guarded _ _ _).onlyFound h hw
  | delegateStatus env p n =>
    exact (guarded_find (List.mem_singleton.2 rfl) fun _ => guarded_exec' : (Verif.delegateStatus env p n).Guarded _ _ _).onlyFound h hw
  | delegateGC env p n =>
    exact (guarded_find (List.mem_singleton.2 rfl) fun _ => guarded_exec' : (Verif.delegateGC env p n).Guarded _ _ _).onlyFound h hw

/-- C67: so with the extensions of Unix every executed file is a direct child, called like one of the plugin types, of one of the
directories; a type that is empty or has a separator in it executes nothing. -/
theorem c67_inside (op : EntryPoint) (hs : op.SameTypes) (fs : FS) (tr : Trace) (h : op.Happens flt fs tr)
    (w : Nat → Bytes → Bool) (hw : DefaultSearch unixExtensions w tr) (hd : ∀ d ∈ op.paths, d ≠ [])
    (ht : ∀ t ∈ op.types, t ≠ b!"." ∧ t ≠ b!"..") :
    ∀ e ∈ tr.execs, ∃ t ∈ op.types, t ≠ [] ∧ 47 ∉ t ∧ ∃ d ∈ op.paths, e.path = childPath (cleanPath d) t := by
  intro e he
  obtain ⟨ev, hev, he⟩ := List.mem_filterMap.1 he
  obtain ⟨i, hi⟩ := List.mem_iff_getElem?.1 hev
  have hev' : ev = ⟨.exec e.path e.stdin e.args, e.resp⟩ := by
    obtain ⟨a, r⟩ := ev
    cases a <;> simp only [Event.exec?, Option.some.injEq, reduceCtorEq] at he
    subst he
    rfl
  rw [hev'] at hi
  obtain ⟨j, t, -, ht', -, hf⟩ := (c67_only_found op hs fs tr h _ w hw).executed i _ _ _ _ hi
  obtain ⟨d, hd', hp⟩ := c44_no_escape _ t _ _ hd (ht t ht') ((c44_find_iff _ _ _ _ _).2 hf)
  exact ⟨t, ht', hf.named, hf.plain, d, hd', hp⟩

/-! ### concrete cases -/

namespace Example

/-- Test data; models no code. -/
def isBin (p : Bytes) : Bool := p = b!"/bin/a" || p = b!"/bin/b"

/-- Observation in tests; models no code. -/
def sameAnswer : Except GoErr Bytes → Except GoErr Bytes → Bool
  | .ok a, .ok b => a = b
  | .error (.text a), .error (.text b) => a = b
  | _, _ => false

/-- Observation in tests; models no code. -/
def ownSearch (tr : Trace) : Bool := tr.finds.all fun f => sameAnswer f.resp (findInPath unixExtensions isBin f.name f.paths)

theorem ownSearch_default {tr : Trace} (h : ownSearch tr = true) : DefaultSearch unixExtensions (fun _ => isBin) tr := by
  intro i n ps r hi
  have hm : (⟨n, ps, r⟩ : FindEv) ∈ tr.finds :=
    List.mem_filterMap.2 ⟨_, List.mem_of_getElem? hi, rfl⟩
  have hs := List.all_eq_true.1 h _ hm
  simp only at hs ⊢
  generalize findInPath unixExtensions isBin n ps = x at hs
  unfold sameAnswer at hs
  split at hs
  · exact congrArg Except.ok (of_decide_eq_true hs)
  · exact congrArg (Except.error ∘ GoErr.text) (of_decide_eq_true hs)
  · cases hs

/-- ADD of a list with the library's own search: the hypotheses of C67 are met, and both plugins are executed. -/
example : ∃ tr, (EntryPoint.addList cfg list rt).Happens false noFiles tr ∧ DefaultSearch unixExtensions (fun _ => isBin) tr ∧
    tr.execs.map (·.path) = [b!"/bin/a", b!"/bin/b"] := by
  obtain ⟨tr, fs', o, h, he⟩ := Prog.interp_exists (flt := false) (p := cfg.addNetworkList list rt) (fs := noFiles)
    (find := fun n => findInPath unixExtensions isBin n [b!"/bin"]) (exec := good) (b := (true, [b!"/bin/a", b!"/bin/b"]))
    (fun tr _ _ => (ownSearch tr, tr.execs.map (·.path))) (by decide +kernel)
  simp only [Prod.mk.injEq] at he
  exact ⟨tr, .inl ⟨fs', o, h⟩, ownSearch_default he.1, he.2⟩

/-- A type with a separator in it executes nothing. -/
example : ∃ tr fs' o, Runs false (cfg.getVersionInfo b!"../bin/a") noFiles tr fs' o ∧
    (ownSearch tr, tr.execs.map (·.path), o.toOption.isSome) = (true, [], false) :=
  Prog.interp_exists (find := fun n => findInPath unixExtensions isBin n [b!"/bin"]) (exec := good)
    (fun tr _ o => (ownSearch tr, tr.execs.map (·.path), o.toOption.isSome)) (by decide +kernel)

/-- A plugin that says its type twice. -/
def twoTypes : PluginConfig := { network := { type := b!"a" }, bytes := b!"{\"type\":\"b\",\"Type\":\"a\"}" }

/-- A finding: for a configuration that says the type twice, which a file of its own can, DEL executes one plugin and STATUS another:
rewriting has sorted the keys. So the hypothesis on types is needed. -/
example : (pluginConfFromBytes twoTypes.bytes).toOption = some twoTypes ∧
    (∃ tr fs' o, Runs false (cfg.delNetworkList { list11 with plugins := [twoTypes] } rt) noFiles tr fs' o ∧
      tr.execs.map (·.path) = [b!"/bin/a"]) ∧
    (∃ tr fs' o, Runs false (cfg.getStatusNetworkList { list11 with plugins := [twoTypes] }) noFiles tr fs' o ∧
      tr.execs.map (·.path) = [b!"/bin/b"]) :=
  ⟨by decide +kernel,
    Prog.interp_exists (find := find) (exec := good) (fun tr _ _ => tr.execs.map (·.path)) (by decide +kernel),
    Prog.interp_exists (find := find) (exec := good) (fun tr _ _ => tr.execs.map (·.path)) (by decide +kernel)⟩

end Example

end Verif
