/- Which files the operations touch: an operation on an attachment reads and changes no file but the attachment's own. -/
import Verif.Libcni.Api
import Verif.Libcni.CrashLemmas

namespace Verif
open Spec

variable {α : Type} {flt : Bool}

/-- The call touches no file but `q` (and lists no directory). Proof device: models no code. -/
def Act.Only (q : Bytes) : Act → Prop
  | .readFile p => p = q
  | .writeFile p _ => p = q
  | .remove p => p = q
  | .readDir _ => False
  | _ => True

/-- The call is about plugins only. Proof device: models no code. -/
def Act.Plugins : Act → Prop
  | .find .. => True
  | .exec .. => True
  | _ => False

theorem Act.Plugins.only {a : Act} (h : a.Plugins) (q : Bytes) : a.Only q := by
  cases a <;> first | trivial | exact h.elim

theorem Act.Plugins.readonly {a : Act} (h : a.Plugins) : a.writes = none := by
  cases a <;> first | rfl | exact h.elim

theorem Act.Only.writes {a : Act} {q q' : Bytes} (h : a.Only q) (hne : q' ≠ q) : a.writes ≠ some q' := by
  cases a with
  | writeFile p c => simp only [Act.Only] at h; simp [Act.writes, h, Ne.symm hne]
  | remove p => simp only [Act.Only] at h; simp [Act.writes, h, Ne.symm hne]
  | _ => simp [Act.writes]

theorem findPlugin_plugins {type : Bytes} {paths : List Bytes} : (findPlugin type paths).All Act.Plugins :=
  ⟨trivial, fun r => by cases r <;> trivial⟩

theorem execWithResult_plugins {path conf : Bytes} {args : PArgs} : (execWithResult path conf args).All Act.Plugins :=
  ⟨trivial, fun r => by cases r <;> trivial⟩

theorem execWithoutResult_plugins {path conf : Bytes} {args : PArgs} : (execWithoutResult path conf args).All Act.Plugins :=
  ⟨trivial, fun r => by cases r <;> trivial⟩

theorem addNetwork1_plugins {c : CNIConfig} {name ver : Bytes} {net : PluginConfig} {prev : Option Result} {rt : RuntimeConf} :
    (c.addNetwork1 name ver net prev rt).All Act.Plugins := by
  unfold CNIConfig.addNetwork1
  simp only [prog_bind_eq]
  exact findPlugin_plugins.bind fun _ => Prog.All.bind (p := Prog.lift _) trivial fun _ =>
    Prog.All.bind (p := Prog.lift _) trivial fun _ => execWithResult_plugins

theorem addLoop_plugins {c : CNIConfig} {name ver : Bytes} {rt : RuntimeConf} {ps : List PluginConfig} :
    ∀ {prev : Option Result}, (c.addLoop name ver rt ps prev).All Act.Plugins := by
  induction ps with
  | nil => intro prev; trivial
  | cons p ps ih => intro prev; exact addNetwork1_plugins.mapErr.bind fun _ => ih

theorem runNetwork1_plugins {c : CNIConfig} {verb name ver : Bytes} {net : PluginConfig} {prev : Option Result} {rt : RuntimeConf} :
    (c.runNetwork1 verb name ver net prev rt).All Act.Plugins := by
  unfold CNIConfig.runNetwork1
  simp only [prog_bind_eq]
  exact findPlugin_plugins.bind fun _ => Prog.All.bind (p := Prog.lift _) trivial fun _ => execWithoutResult_plugins

theorem checkLoop_plugins {c : CNIConfig} {name ver : Bytes} {prev : Option Result} {rt : RuntimeConf} {ps : List PluginConfig} :
    (c.checkLoop name ver prev rt ps).All Act.Plugins := by
  induction ps with
  | nil => trivial
  | cons p ps ih => exact runNetwork1_plugins.bind fun _ => ih

theorem delLoop_plugins {c : CNIConfig} {name ver : Bytes} {prev : Option Result} {rt : RuntimeConf} {ps : List PluginConfig} :
    (c.delLoop name ver prev rt ps).All Act.Plugins := by
  induction ps with
  | nil => trivial
  | cons p ps ih => exact runNetwork1_plugins.mapErr.bind fun _ => ih

theorem bareNetwork1_plugins {c : CNIConfig} {verb : Bytes} {net : PluginConfig} : (c.bareNetwork1 verb net).All Act.Plugins := by
  unfold CNIConfig.bareNetwork1
  simp only [prog_bind_eq]
  exact findPlugin_plugins.bind fun _ => execWithoutResult_plugins

theorem gcLoop_plugins {c : CNIConfig} {name ver : Bytes} {valid : Option (List GCAttachment)} {ps : List PluginConfig} :
    ∀ {errs : List GoErr}, (c.gcLoop name ver valid ps errs).All Act.Plugins := by
  induction ps with
  | nil => intro errs; trivial
  | cons p ps ih =>
    intro errs
    unfold CNIConfig.gcLoop
    split
    · exact bareNetwork1_plugins.attempt.bind fun _ => ih
    · trivial
    · trivial

theorem statusLoop_plugins {c : CNIConfig} {name ver : Bytes} {ps : List PluginConfig} :
    (c.statusLoop name ver ps).All Act.Plugins := by
  induction ps with
  | nil => trivial
  | cons p ps ih =>
    exact Prog.All.bind (p := Prog.lift _) trivial fun _ => bareNetwork1_plugins.bind fun _ => ih

/-- What an operation on the cache entry of an attachment does with it. Proof device: models no
code. -/
def Act.At (q : Out Bytes) (a : Act) : Prop := ∃ p, q = .ok p ∧ a.Only p

theorem cacheAdd_at {c : CNIConfig} {result : Option Result} {config name : Bytes} {rt : RuntimeConf} :
    (c.cacheAdd result config name rt).All (Act.At (c.cachePath name rt)) := by
  unfold CNIConfig.cacheAdd
  split
  · trivial
  · split
    · rename_i p hp
      refine ⟨⟨p, hp, trivial⟩, fun r => ?_⟩
      cases r with
      | false => trivial
      | true =>
        refine ⟨⟨p, hp, rfl⟩, fun r => ?_⟩
        cases r <;> trivial
    · trivial
    · trivial

theorem cacheDel_at {c : CNIConfig} {name : Bytes} {rt : RuntimeConf} :
    (c.cacheDel name rt).All fun a => ∃ p, c.cachePath name rt = .ok p ∧ a = .remove p := by
  unfold CNIConfig.cacheDel
  split
  · rename_i p hp
    refine ⟨⟨p, hp, rfl⟩, fun r => ?_⟩
    cases r <;> trivial
  · trivial

variable {c : CNIConfig} {list : NetConfList} {net : PluginConfig} {rt : RuntimeConf}

theorem addNetworkList_acts : (c.addNetworkList list rt).All fun a => a.Plugins ∨ Act.At (c.cachePath list.name rt) a := by
  unfold CNIConfig.addNetworkList
  simp only [prog_bind_eq]
  exact (addLoop_plugins.mono fun _ h => .inl h).bind fun _ => (cacheAdd_at.mono fun _ h => .inr h).mapErr.bind fun _ => trivial

theorem addNetwork_acts : (c.addNetwork net rt).All fun a => a.Plugins ∨ Act.At (c.cachePath net.network.name rt) a := by
  unfold CNIConfig.addNetwork
  simp only [prog_bind_eq]
  exact (addNetwork1_plugins.mono fun _ h => .inl h).bind fun _ => (cacheAdd_at.mono fun _ h => .inr h).mapErr.bind fun _ => trivial

theorem delNetworkList_acts : (c.delNetworkList list rt).All fun a =>
    a.Plugins ∨ ∃ p, c.cachePath list.name rt = .ok p ∧ (a = .readFile p ∨ a = .remove p) := by
  have hdel : (c.cacheDel list.name rt).attempt.All fun a =>
      a.Plugins ∨ ∃ p, c.cachePath list.name rt = .ok p ∧ (a = .readFile p ∨ a = .remove p) :=
    (cacheDel_at.mono fun a ⟨p, h1, h2⟩ => Or.inr ⟨p, h1, .inr h2⟩).attempt
  have hrest : ∀ prev, ((c.delLoop list.name list.cniVersion prev rt list.plugins.reverse).bind
      fun _ => (c.cacheDel list.name rt).attempt.bind fun _ => .done (.ok ())).All fun a =>
      a.Plugins ∨ ∃ p, c.cachePath list.name rt = .ok p ∧ (a = .readFile p ∨ a = .remove p) :=
    fun prev => (delLoop_plugins.mono fun _ h => .inl h).bind fun _ => hdel.bind fun _ => trivial
  unfold CNIConfig.delNetworkList
  simp only
  split
  · trivial
  · trivial
  · exact hrest none
  · refine Prog.All.bind ?_ hrest
    refine Prog.All.bind (getCachedResult_looks.mono fun a ⟨p, h1, h2⟩ => Or.inr ⟨p, h2, .inl h1⟩).attempt fun r => ?_
    cases r with
    | ok _ => trivial
    | error _ => exact hdel.bind fun _ => trivial

theorem delNetwork_acts : (c.delNetwork net rt).All fun a =>
    a.Plugins ∨ ∃ p, c.cachePath net.network.name rt = .ok p ∧ (a = .readFile p ∨ a = .remove p) := by
  have hdel : (c.cacheDel net.network.name rt).attempt.All fun a =>
      a.Plugins ∨ ∃ p, c.cachePath net.network.name rt = .ok p ∧ (a = .readFile p ∨ a = .remove p) :=
    (cacheDel_at.mono fun a ⟨p, h1, h2⟩ => Or.inr ⟨p, h1, .inr h2⟩).attempt
  have hrest : ∀ prev, ((c.runNetwork1 b!"DEL" net.network.name net.network.cniVersion net prev rt).bind
      fun _ => (c.cacheDel net.network.name rt).attempt.bind fun _ => .done (.ok ())).All fun a =>
      a.Plugins ∨ ∃ p, c.cachePath net.network.name rt = .ok p ∧ (a = .readFile p ∨ a = .remove p) :=
    fun prev => (runNetwork1_plugins.mono fun _ h => .inl h).bind fun _ => hdel.bind fun _ => trivial
  unfold CNIConfig.delNetwork
  simp only
  split
  · trivial
  · trivial
  · exact hrest none
  · exact Prog.All.bind (getCachedResult_looks.mono fun a ⟨p, h1, h2⟩ => Or.inr ⟨p, h2, .inl h1⟩).mapErr hrest

theorem checkNetworkList_acts : (c.checkNetworkList list rt).All fun a =>
    a.Plugins ∨ ∃ p, c.cachePath list.name rt = .ok p ∧ a = .readFile p := by
  unfold CNIConfig.checkNetworkList
  split
  · trivial
  · trivial
  · trivial
  · split
    · trivial
    · exact Prog.All.bind (getCachedResult_looks.mono fun a ⟨p, h1, h2⟩ => Or.inr ⟨p, h2, h1⟩).mapErr
        fun _ => checkLoop_plugins.mono fun _ h => .inl h

theorem checkNetwork_acts : (c.checkNetwork net rt).All fun a =>
    a.Plugins ∨ ∃ p, c.cachePath net.network.name rt = .ok p ∧ a = .readFile p := by
  unfold CNIConfig.checkNetwork
  split
  · trivial
  · trivial
  · trivial
  · exact Prog.All.bind (getCachedResult_looks.mono fun a ⟨p, h1, h2⟩ => Or.inr ⟨p, h2, h1⟩).mapErr
      fun _ => runNetwork1_plugins.mono fun _ h => .inl h

end Verif
