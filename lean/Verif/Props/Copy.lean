/-
C62: the `Copy` methods make independent copies.
-/
import Verif.Types.HeapCopy
import Verif.Spec.Copy
import Verif.Props.Heap

open Verif.Spec

namespace Verif

/-- The addresses of cells. -/
local notation "Addr" => Nat

/-- What `Gives` says about copying is what a copy is. -/
theorem copyOf_gives {v : View α β} (hv : Stable v) {m : HM α} {h : Heap} {x : α} (hx : Lives v h x)
    (hg : Gives m h (.ok (v.load h x)) (Stands v h.next (v.arrays h x))) : ∃ x' h', m h = .ok (x', h') ∧ CopyOf v h x h' x' := by
  unfold Gives at hg
  cases hm : m h with
  | err e => rw [hm] at hg; exact hg.elim
  | panic => rw [hm] at hg; exact hg.elim
  | ok p =>
    obtain ⟨x', h'⟩ := p
    rw [hm] at hg
    obtain ⟨he, hs⟩ := hg
    have hfresh : ∀ a ∈ v.cells h' x', h.next ≤ a := fun a ha => (hs.cells a ha).1
    refine ⟨x', h', rfl, hs.load, he.cell, ⟨fun a ha => (hs.cells a ha).2, ?_, ?_⟩, hfresh, hs.arrays, ?_, ?_⟩
    · exact fun a ha => Nat.lt_of_lt_of_le (hx.arrays a (hs.arrays a ha)) he.next
    · exact fun a ha hc => absurd (hx.arrays a (hs.arrays a ha)) (Nat.not_lt.2 (hfresh a hc))
    · intro h2 hw
      have hold : ∀ a, a < h.next → h2.cell a = h.cell a := fun a ha =>
        (hw a (Nat.lt_of_lt_of_le ha he.next) (fun hc => absurd ha (Nat.not_lt.2 (hfresh a hc)))).trans (he.cell a ha)
      exact (hv h h2 x (fun a ha => hold a (hx.cells a ha)) (fun a ha => one_bytes h h2 a (hold a (hx.arrays a ha)))).1
    · intro h2 hw
      have key := (hv h' h2 x' (fun a ha => hw a (hs.cells a ha).2 (fun hc => absurd (hx.cells a hc) (Nat.not_lt.2 (hfresh a ha))))
        (fun a ha => one_bytes h' h2 a (hw a (Nat.lt_of_lt_of_le (hx.arrays a (hs.arrays a ha)) he.next) (hx.apart a (hs.arrays a ha))))).1
      exact key.trans hs.load

theorem lives_stands {v : View α β} {h : Heap} {x : α} (hx : Lives v h x) : Stands v 0 (v.arrays h x) h x (v.load h x) :=
  ⟨rfl, fun a ha => ⟨Nat.zero_le _, hx.cells a ha⟩, fun _ ha => ha⟩

theorem copyPtr_gives {v : View Addr β} {f : Addr → HM Addr} {lo : Nat} {A : List Addr} {h : Heap}
    (hf : ∀ a y, Stands v 0 A h a y → Gives (f a) h (.ok y) (Stands v lo A)) {x : Option Addr} {y : Option β}
    (hx : Stands v.opt 0 A h x y) : Gives (copyPtr f x) h (.ok y) (Stands v.opt lo A) := by
  cases x with
  | none => rw [hx.of_none]; exact Gives.pure Stands.none
  | some a =>
    obtain ⟨z, hz⟩ : ∃ z, y = some z := ⟨_, hx.load.symm⟩
    subst hz
    have hx2 : Stands v 0 A h a z := by
      refine ⟨?_, ?_, ?_⟩
      · have := hx.load; simpa [View.opt] using this
      · intro b hb; exact hx.cells b (by simpa [View.opt] using hb)
      · intro b hb; exact hx.arrays b (by simpa [View.opt] using hb)
    simp only [copyPtr]
    refine Gives.step (hf a z hx2) ?_
    intro h1 b e1 hb
    exact Gives.pure hb.some

theorem copyIntf100_gives {lo : Nat} {A : List Addr} {h : Heap} {a : Addr} {y : Intf100} (hl : lo ≤ h.next)
    (ha : Stands (leaf Heap.intf100) 0 A h a y) : Gives (copyIntf100 a) h (.ok y) (Stands (leaf Heap.intf100) lo A) := by
  simp only [copyIntf100]
  refine Gives.step (Gives.look _ _) ?_
  rintro _ _ - ⟨rfl, rfl⟩
  have q : Heap.intf100 _ a = y := ha.load
  rw [q]
  exact alloc_leaf read_intf100 hl

theorem copyIp100_gives {lo : Nat} {A : List Addr} (hA : ∀ a ∈ A, a < lo) {h : Heap} {a : Addr} {y : Ip100} (hl : lo ≤ h.next)
    (ha : Stands (View.ptr Heap.ip100 viewIp100) 0 A h a y) : Gives (copyIp100 a) h (.ok y) (Stands (View.ptr Heap.ip100 viewIp100) lo A) := by
  simp only [copyIp100]
  refine Gives.step (Gives.look _ _) ?_
  rintro _ _ - ⟨rfl, rfl⟩
  have hi := ha.deref
  refine Gives.step (copyInt_gives (A := A) hl hi.optInt100) ?_
  intro h1 x e1 hx
  have hi1 := hi.ext' hA stable_ip100 e1 hl
  refine alloc_ptr hA stable_ip100 read_ip100 (Nat.le_trans hl e1.next) ⟨?_, hx.cells, hi1.arrays⟩
  have q := hx.load
  simp only [optInt] at q
  simp only [viewIp100, q]
  rw [← hi1.load]
  rfl

/-- `Interface.Copy` of the 0.3/0.4 type; of nil it is nil, as for all of these. -/
theorem c62_interface040 (h : Heap) (x : Option Addr) (hx : Lives (leaf Heap.intf040).opt h x) :
    ∃ x' h', copyPtr copyIntf040 x h = .ok (x', h') ∧ CopyOf (leaf Heap.intf040).opt h x h' x' :=
  copyOf_gives (stable_opt (stable_leaf one_intf040)) hx
    (copyPtr_gives (fun _ _ ha => intfCopy_gives (Nat.le_refl _) ha) (lives_stands hx))

/-- `Interface.Copy` of the 1.x type. -/
theorem c62_interface100 (h : Heap) (x : Option Addr) (hx : Lives (leaf Heap.intf100).opt h x) :
    ∃ x' h', copyPtr copyIntf100 x h = .ok (x', h') ∧ CopyOf (leaf Heap.intf100).opt h x h' x' :=
  copyOf_gives (stable_opt (stable_leaf one_intf100)) hx
    (copyPtr_gives (fun _ _ ha => copyIntf100_gives (Nat.le_refl _) ha) (lives_stands hx))

/-- `IPConfig.Copy` of the 0.1/0.2 type, with its routes. -/
theorem c62_ip020 (h : Heap) (x : Option Addr) (hx : Lives (View.ptr Heap.ip020 viewIp020).opt h x) :
    ∃ x' h', copyIp020 x h = .ok (x', h') ∧ CopyOf (View.ptr Heap.ip020 viewIp020).opt h x h' x' := by
  have hid : ∀ y : Option Ip020, y.map Ip020.copy = y := fun y => by
    cases y with
    | none => rfl
    | some i => simp only [Option.map_some, Ip020.copy]; rw [List.map_congr_left (fun r _ => Route.copy_eq r), List.map_id']
  have hg := copyIp020_gives hx.arrays (Nat.le_refl _) (lives_stands hx)
  rw [hid] at hg
  exact copyOf_gives (stable_opt stable_ip020ptr) hx hg

/-- `IPConfig.Copy` of the 0.3/0.4 type. -/
theorem c62_ip040 (h : Heap) (x : Option Addr) (hx : Lives (View.ptr Heap.ip040 viewIp040).opt h x) :
    ∃ x' h', copyPtr copyIp040 x h = .ok (x', h') ∧ CopyOf (View.ptr Heap.ip040 viewIp040).opt h x h' x' :=
  copyOf_gives (stable_opt stable_ip040ptr) hx
    (copyPtr_gives (fun _ _ ha => copyIp040_gives hx.arrays (Nat.le_refl _) ha) (lives_stands hx))

/-- `IPConfig.Copy` of the 1.x type. -/
theorem c62_ip100 (h : Heap) (x : Option Addr) (hx : Lives (View.ptr Heap.ip100 viewIp100).opt h x) :
    ∃ x' h', copyPtr copyIp100 x h = .ok (x', h') ∧ CopyOf (View.ptr Heap.ip100 viewIp100).opt h x h' x' :=
  copyOf_gives (stable_opt stable_ip100ptr) hx
    (copyPtr_gives (fun _ _ ha => copyIp100_gives hx.arrays (Nat.le_refl _) ha) (lives_stands hx))

/-- `Route.Copy`. -/
theorem c62_route (h : Heap) (x : Option Addr) (hx : Lives (View.ptr Heap.route viewRoute).opt h x) :
    ∃ x' h', copyPtr copyRoute x h = .ok (x', h') ∧ CopyOf (View.ptr Heap.route viewRoute).opt h x h' x' :=
  copyOf_gives (stable_opt stable_routePtr) hx
    (copyPtr_gives (fun a y ha => by have := copyRoute_gives hx.arrays (Nat.le_refl _) ha; rw [Route.copy_eq] at this; exact this) (lives_stands hx))

/-- `DNS.Copy`. -/
theorem c62_dns (h : Heap) (d : HDns) (hx : Lives viewDns h d) : ∃ d' h', d.copy h = .ok (d', h') ∧ CopyOf viewDns h d h' d' :=
  copyOf_gives stable_dns hx (dnsCopy_gives hx.arrays (Nat.le_refl _) (lives_stands hx))

namespace Example

/-- A heap with a 1.x address on interface 3. -/
def ipHeap : Heap where
  next := 5
  cell
    | 0 => .bytes [10, 0, 0, 1]
    | 1 => .bytes [255, 0, 0, 0]
    | 2 => .bytes []
    | 3 => .int 3
    | _ => .ip100 { interface := some 3, ip := 0, mask := 1, gateway := 2 }

example : Lives (View.ptr Heap.ip100 viewIp100).opt ipHeap (some 4) := by constructor <;> decide

/-- The copy has its own struct and its own interface number, and the same address bytes. -/
example : (match copyPtr copyIp100 (some 4) ipHeap with
    | .ok (x', h') => (x', (View.ptr Heap.ip100 viewIp100).opt.cells h' x', (View.ptr Heap.ip100 viewIp100).opt.arrays h' x')
    | _ => (none, [], [])) = (some 6, [6, 5], [0, 1, 2]) := by decide

end Example

end Verif
