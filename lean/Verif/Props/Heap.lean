/- C56: what a converted result shares with the original. -/
import Verif.Spec.Heap
import Verif.Props.Convert

/-- The addresses of cells. -/
local notation "Addr" => Nat

namespace Verif
open Spec
set_option linter.unusedSimpArgs false

/-! ### views -/

/-- A view depends only on its cells and arrays. Proof device: models no code. -/
def Stable (v : View α β) : Prop := ∀ h h' x, (∀ a ∈ v.cells h x, h'.cell a = h.cell a) → (∀ a ∈ v.arrays h x, h'.bytes a = h.bytes a) →
  v.load h' x = v.load h x ∧ v.cells h' x = v.cells h x ∧ v.arrays h' x = v.arrays h x

/-- Reading looks at one cell. Proof device: models no code. -/
def OneCell (read : Heap → Addr → α) : Prop := ∀ h h' a, h'.cell a = h.cell a → read h' a = read h a

theorem one_strs : OneCell Heap.strs := by intro h h' a e; simp only [Heap.strs, e]
theorem one_int : OneCell Heap.int := by intro h h' a e; simp only [Heap.int, e]
theorem one_routeArr : OneCell Heap.routeArr := by intro h h' a e; simp only [Heap.routeArr, e]
theorem one_ptrs : OneCell Heap.ptrs := by intro h h' a e; simp only [Heap.ptrs, e]
theorem one_route : OneCell Heap.route := by intro h h' a e; simp only [Heap.route, e]
theorem one_intf040 : OneCell Heap.intf040 := by intro h h' a e; simp only [Heap.intf040, e]
theorem one_intf100 : OneCell Heap.intf100 := by intro h h' a e; simp only [Heap.intf100, e]
theorem one_ip020 : OneCell Heap.ip020 := by intro h h' a e; simp only [Heap.ip020, e]
theorem one_ip040 : OneCell Heap.ip040 := by intro h h' a e; simp only [Heap.ip040, e]
theorem one_ip100 : OneCell Heap.ip100 := by intro h h' a e; simp only [Heap.ip100, e]
theorem one_r020 : OneCell Heap.r020 := by intro h h' a e; simp only [Heap.r020, e]
theorem one_r040 : OneCell Heap.r040 := by intro h h' a e; simp only [Heap.r040, e]
theorem one_r100 : OneCell Heap.r100 := by intro h h' a e; simp only [Heap.r100, e]
theorem one_bytes : OneCell Heap.bytes := by intro h h' a e; simp only [Heap.bytes, e]

theorem read_bytes {x : Bytes} : ∀ (h : Heap) (a : Addr), h.cell a = .bytes x → h.bytes a = x := by intro h a e; simp only [Heap.bytes, e]
theorem read_strs {x : List Bytes} : ∀ (h : Heap) (a : Addr), h.cell a = .strs x → h.strs a = x := by intro h a e; simp only [Heap.strs, e]
theorem read_routeArr {x : List HRoute} : ∀ (h : Heap) (a : Addr), h.cell a = .routes x → h.routeArr a = x := by intro h a e; simp only [Heap.routeArr, e]
theorem read_ptrs {x : List (Option Addr)} : ∀ (h : Heap) (a : Addr), h.cell a = .ptrs x → h.ptrs a = x := by intro h a e; simp only [Heap.ptrs, e]
theorem read_route {x : HRoute} : ∀ (h : Heap) (a : Addr), h.cell a = .route x → h.route a = x := by intro h a e; simp only [Heap.route, e]
theorem read_intf040 {x : Intf040} : ∀ (h : Heap) (a : Addr), h.cell a = .intf040 x → h.intf040 a = x := by intro h a e; simp only [Heap.intf040, e]
theorem read_intf100 {x : Intf100} : ∀ (h : Heap) (a : Addr), h.cell a = .intf100 x → h.intf100 a = x := by intro h a e; simp only [Heap.intf100, e]
theorem read_ip020 {x : HIp020} : ∀ (h : Heap) (a : Addr), h.cell a = .ip020 x → h.ip020 a = x := by intro h a e; simp only [Heap.ip020, e]
theorem read_ip040 {x : HIp040} : ∀ (h : Heap) (a : Addr), h.cell a = .ip040 x → h.ip040 a = x := by intro h a e; simp only [Heap.ip040, e]
theorem read_ip100 {x : HIp100} : ∀ (h : Heap) (a : Addr), h.cell a = .ip100 x → h.ip100 a = x := by intro h a e; simp only [Heap.ip100, e]
theorem read_r020 {x : H020} : ∀ (h : Heap) (a : Addr), h.cell a = .r020 x → h.r020 a = x := by intro h a e; simp only [Heap.r020, e]
theorem read_r040 {x : HNew} : ∀ (h : Heap) (a : Addr), h.cell a = .r040 x → h.r040 a = x := by intro h a e; simp only [Heap.r040, e]
theorem read_r100 {x : HNew} : ∀ (h : Heap) (a : Addr), h.cell a = .r100 x → h.r100 a = x := by intro h a e; simp only [Heap.r100, e]

theorem stable_leaf {read : Heap → Addr → α} (hr : OneCell read) : Stable (leaf read) := by
  intro h h' x hc _
  exact ⟨hr h h' x (hc x (by simp [leaf])), rfl, rfl⟩

theorem stable_list {v : View α β} (hv : Stable v) : Stable v.list := by
  intro h h' x hc ha
  induction x with
  | nil => exact ⟨rfl, rfl, rfl⟩
  | cons a l ih =>
    simp only [View.list, List.flatMap_cons, List.mem_append] at hc ha ih
    obtain ⟨h1, h2, h3⟩ := hv h h' a (fun b hb => hc b (.inl hb)) (fun b hb => ha b (.inl hb))
    obtain ⟨i1, i2, i3⟩ := ih (fun b hb => hc b (.inr hb)) (fun b hb => ha b (.inr hb))
    simp only [View.list, List.map_cons, List.flatMap_cons, h1, h2, h3, i1, i2, i3, and_self]

theorem stable_opt {v : View α β} (hv : Stable v) : Stable v.opt := by
  intro h h' x hc ha
  cases x with
  | none => exact ⟨rfl, rfl, rfl⟩
  | some a =>
    simp only [View.opt, Option.toList_some, List.flatMap_cons, List.flatMap_nil, List.append_nil] at hc ha
    obtain ⟨h1, h2, h3⟩ := hv h h' a hc ha
    simp only [View.opt, Option.map_some, Option.toList_some, List.flatMap_cons, List.flatMap_nil, h1, h2, h3, and_self]

theorem stable_ptr {read : Heap → Addr → α} {v : View α β} (hr : OneCell read) (hv : Stable v) : Stable (View.ptr read v) := by
  intro h h' x hc ha
  simp only [View.ptr, List.mem_cons] at hc ha ⊢
  rw [hr h h' x (hc x (.inl rfl))]
  obtain ⟨h1, h2, h3⟩ := hv h h' (read h x) (fun b hb => hc b (.inr hb)) ha
  rw [h1, h2, h3]
  exact ⟨rfl, rfl, rfl⟩

theorem map_int {x : Option Addr} {h h' : Heap} (hx : ∀ a ∈ x.toList, h'.cell a = h.cell a) : x.map h'.int = x.map h.int := by
  cases x with
  | none => rfl
  | some a => simp only [Option.map_some, one_int h h' a (hx a (by simp))]

theorem stable_route : Stable viewRoute := by
  intro h h' x hc ha
  simp only [viewRoute, List.mem_append] at hc ha
  refine ⟨?_, rfl, rfl⟩
  simp only [viewRoute, map_int fun a h => hc a (.inl h), map_int fun a h => hc a (.inr h), ha x.dstIp (by simp), ha x.dstMask (by simp),
    ha x.gw (by simp)]

theorem stable_dns : Stable viewDns := by
  intro h h' x hc _
  simp only [viewDns] at hc
  refine ⟨?_, rfl, rfl⟩
  simp only [viewDns, one_strs h h' _ (hc x.nameservers (by simp)), one_strs h h' _ (hc x.search (by simp)),
    one_strs h h' _ (hc x.options (by simp))]

theorem stable_routeArr : Stable (View.ptr Heap.routeArr viewRoute.list) := stable_ptr one_routeArr (stable_list stable_route)

theorem stable_ip020 : Stable viewIp020 := by
  intro h h' x hc ha
  simp only [viewIp020, List.mem_append] at hc ha
  obtain ⟨h1, h2, h3⟩ := stable_routeArr h h' x.routes hc (fun b hb => ha b (.inr hb))
  simp only [viewIp020, h1, h2, h3, ha x.ip (by simp), ha x.mask (by simp), ha x.gateway (by simp), and_self]

theorem stable_ip020ptr : Stable (View.ptr Heap.ip020 viewIp020) := stable_ptr one_ip020 stable_ip020

theorem stable_020 : Stable view020 := by
  intro h h' x hc ha
  simp only [view020, List.mem_append] at hc ha
  obtain ⟨h1, h2, h3⟩ := stable_opt stable_ip020ptr h h' x.ip4 (fun b hb => hc b (.inl (.inl hb))) (fun b hb => ha b (.inl hb))
  obtain ⟨i1, i2, i3⟩ := stable_opt stable_ip020ptr h h' x.ip6 (fun b hb => hc b (.inl (.inr hb))) (fun b hb => ha b (.inr hb))
  obtain ⟨j1, j2, -⟩ := stable_dns h h' x.dns (fun b hb => hc b (.inr hb)) (by simp [viewDns])
  simp only [view020, h1, h2, h3, i1, i2, i3, j1, j2, and_self]

theorem stable_ip040 : Stable viewIp040 := by
  intro h h' x hc ha
  simp only [viewIp040] at hc ha
  refine ⟨?_, rfl, rfl⟩
  simp only [viewIp040, map_int hc, ha x.ip (by simp), ha x.mask (by simp), ha x.gateway (by simp)]

theorem stable_ip100 : Stable viewIp100 := by
  intro h h' x hc ha
  simp only [viewIp100] at hc ha
  refine ⟨?_, rfl, rfl⟩
  simp only [viewIp100, map_int hc, ha x.ip (by simp), ha x.mask (by simp), ha x.gateway (by simp)]

theorem stable_slice {v : View Addr β} (hv : Stable v) : Stable v.slice := stable_ptr one_ptrs (stable_list (stable_opt hv))

theorem stable_routePtr : Stable (View.ptr Heap.route viewRoute) := stable_ptr one_route stable_route
theorem stable_ip040ptr : Stable (View.ptr Heap.ip040 viewIp040) := stable_ptr one_ip040 stable_ip040
theorem stable_ip100ptr : Stable (View.ptr Heap.ip100 viewIp100) := stable_ptr one_ip100 stable_ip100

theorem slice_leaf_arrays {read : Heap → Addr → α} (h : Heap) (a : Addr) : (leaf read).slice.arrays h a = [] := by
  simp only [View.slice, View.ptr, View.list, View.opt, leaf, List.flatMap_eq_nil_iff]
  intros; trivial

theorem stable_040 : Stable view040 := by
  intro h h' x hc ha
  simp only [view040, List.mem_append] at hc ha
  obtain ⟨g1, g2, -⟩ := stable_slice (stable_leaf one_intf040) h h' x.interfaces (fun b hb => hc b (.inl (.inl (.inl hb))))
    (by rw [slice_leaf_arrays]; simp)
  obtain ⟨h1, h2, h3⟩ := stable_slice stable_ip040ptr h h' x.ips (fun b hb => hc b (.inl (.inl (.inr hb)))) (fun b hb => ha b (.inl hb))
  obtain ⟨i1, i2, i3⟩ := stable_slice stable_routePtr h h' x.routes (fun b hb => hc b (.inl (.inr hb))) (fun b hb => ha b (.inr hb))
  obtain ⟨j1, j2, -⟩ := stable_dns h h' x.dns (fun b hb => hc b (.inr hb)) (by simp [viewDns])
  simp only [view040, g1, g2, h1, h2, h3, i1, i2, i3, j1, j2, and_self]

theorem stable_100 : Stable view100 := by
  intro h h' x hc ha
  simp only [view100, List.mem_append] at hc ha
  obtain ⟨g1, g2, -⟩ := stable_slice (stable_leaf one_intf100) h h' x.interfaces (fun b hb => hc b (.inl (.inl (.inl hb))))
    (by rw [slice_leaf_arrays]; simp)
  obtain ⟨h1, h2, h3⟩ := stable_slice stable_ip100ptr h h' x.ips (fun b hb => hc b (.inl (.inl (.inr hb)))) (fun b hb => ha b (.inl hb))
  obtain ⟨i1, i2, i3⟩ := stable_slice stable_routePtr h h' x.routes (fun b hb => hc b (.inl (.inr hb))) (fun b hb => ha b (.inr hb))
  obtain ⟨j1, j2, -⟩ := stable_dns h h' x.dns (fun b hb => hc b (.inr hb)) (by simp [viewDns])
  simp only [view100, g1, g2, h1, h2, h3, i1, i2, i3, j1, j2, and_self]

theorem stable_view : Stable view := by
  intro h h' x hc ha
  cases x with
  | v020 a =>
    obtain ⟨h1, h2, h3⟩ := stable_ptr one_r020 stable_020 h h' a hc ha
    exact ⟨congrArg Result.v020 h1, h2, h3⟩
  | v040 a =>
    obtain ⟨h1, h2, h3⟩ := stable_ptr one_r040 stable_040 h h' a hc ha
    exact ⟨congrArg Result.v040 h1, h2, h3⟩
  | v100 a =>
    obtain ⟨h1, h2, h3⟩ := stable_ptr one_r100 stable_100 h h' a hc ha
    exact ⟨congrArg Result.v100 h1, h2, h3⟩

/-! ### running code that allocates -/

/-- `h'` is `h` with more cells. Proof device: models no code. -/
structure Ext (h h' : Heap) : Prop where
  next : h.next ≤ h'.next
  cell : ∀ a, a < h.next → h'.cell a = h.cell a

theorem Ext.refl (h : Heap) : Ext h h := ⟨Nat.le_refl _, fun _ _ => rfl⟩
theorem Ext.trans {h h' h'' : Heap} (e : Ext h h') (e' : Ext h' h'') : Ext h h'' :=
  ⟨Nat.le_trans e.next e'.next, fun a ha => (e'.cell a (Nat.lt_of_lt_of_le ha e.next)).trans (e.cell a ha)⟩

/-- `x` has the value `y`, consists of cells from `lo` on, and its arrays are among `A`. Proof device: models no code. -/
structure Stands (v : View α β) (lo : Nat) (A : List Addr) (h : Heap) (x : α) (y : β) : Prop where
  load : v.load h x = y
  cells : ∀ a ∈ v.cells h x, lo ≤ a ∧ a < h.next
  arrays : ∀ a ∈ v.arrays h x, a ∈ A

theorem Stands.ext {v : View α β} (hv : Stable v) {lo : Nat} {A : List Addr} {h h' : Heap} {x : α} {y : β} (hh : Stands v lo A h x y)
    (e : Ext h h') (hA : ∀ a ∈ A, a < h.next) : Stands v lo A h' x y := by
  obtain ⟨h1, h2, h3⟩ := hv h h' x (fun a ha => e.cell a (hh.cells a ha).2) (fun a ha => one_bytes h h' a (e.cell a (hA a (hh.arrays a ha))))
  refine ⟨h1.trans hh.load, ?_, ?_⟩
  · rw [h2]; exact fun a ha => ⟨(hh.cells a ha).1, Nat.lt_of_lt_of_le (hh.cells a ha).2 e.next⟩
  · rw [h3]; exact hh.arrays

/-- Running `m` in `h` ends as `o` does, with values related by `Q`, in a heap with more cells. Proof device: models no code. -/
def Gives (m : HM α) (h : Heap) (o : Out β) (Q : Heap → α → β → Prop) : Prop :=
  match m h, o with
  | .ok (a, h'), .ok b => Ext h h' ∧ Q h' a b
  | .err e, .err e' => e = e'
  | .panic, .panic => True
  | _, _ => False

theorem Gives.pure {a : α} {h : Heap} {b : β} {Q : Heap → α → β → Prop} (q : Q h a b) : Gives (Pure.pure a : HM α) h (.ok b) Q :=
  ⟨Ext.refl h, q⟩

theorem Gives.bind {m : HM α} {f : α → HM γ} {h : Heap} {o : Out β} {g : β → Out δ} {Q : Heap → α → β → Prop} {R : Heap → γ → δ → Prop}
    (hm : Gives m h o Q) (hf : ∀ h' a b, Ext h h' → Q h' a b → Gives (f a) h' (g b) R) : Gives (m >>= f) h (o >>= g) R := by
  have e : (m >>= f) h = (m h >>= fun p => f p.1 p.2) := rfl
  unfold Gives at hm ⊢
  rw [e]
  cases hmh : m h with
  | ok p =>
    rw [hmh] at hm
    cases o with
    | ok b =>
      simp only at hm
      have := hf p.2 p.1 b hm.1 hm.2
      unfold Gives at this
      simp only [Out.bind_ok]
      split at this
      · exact ⟨hm.1.trans this.1, this.2⟩
      · exact this
      · trivial
      · exact this.elim
    | err e => exact hm.elim
    | panic => exact hm.elim
  | err e =>
    rw [hmh] at hm
    cases o with
    | err e' => exact hm
    | ok b => exact hm.elim
    | panic => exact hm.elim
  | panic =>
    rw [hmh] at hm
    cases o with
    | panic => exact hm
    | ok b => exact hm.elim
    | err b => exact hm.elim

/-- A step of the code that cannot fail. -/
theorem Gives.step {m : HM α} {f : α → HM γ} {h : Heap} {b : β} {o : Out δ} {Q : Heap → α → β → Prop} {R : Heap → γ → δ → Prop}
    (hm : Gives m h (.ok b) Q) (hf : ∀ h' a, Ext h h' → Q h' a b → Gives (f a) h' o R) : Gives (m >>= f) h o R := by
  have e : (m >>= f) h = (m h >>= fun p => f p.1 p.2) := rfl
  unfold Gives at hm ⊢
  rw [e]
  cases hmh : m h with
  | ok p =>
    rw [hmh] at hm
    have := hf p.2 p.1 hm.1 hm.2
    unfold Gives at this
    simp only [Out.bind_ok]
    split at this
    · exact ⟨hm.1.trans this.1, this.2⟩
    · exact this
    · trivial
    · exact this.elim
  | err e => rw [hmh] at hm; exact hm.elim
  | panic => rw [hmh] at hm; exact hm.elim

theorem Gives.look (f : Heap → α) (h : Heap) : Gives (Verif.look f) h (.ok ()) (fun h' a _ => h' = h ∧ a = f h) := ⟨Ext.refl h, rfl, rfl⟩

theorem Gives.alloc (c : Cell) (h : Heap) : Gives (Verif.alloc c) h (.ok ()) (fun h' a _ => a = h.next ∧ h'.next = h.next + 1 ∧ h'.cell a = c) := by
  refine ⟨⟨by simp, ?_⟩, rfl, rfl, by simp⟩
  intro a ha
  simp only [Nat.ne_of_lt ha, if_false]

theorem Gives.mono {m : HM α} {h : Heap} {o : Out β} {Q R : Heap → α → β → Prop} (hm : Gives m h o Q)
    (hq : ∀ h' a b, Ext h h' → Q h' a b → R h' a b) : Gives m h o R := by
  unfold Gives at hm ⊢
  split at hm
  · exact ⟨hm.1, hq _ _ _ hm.1 hm.2⟩
  · exact hm
  · trivial
  · exact hm.elim


section
variable {lo : Nat} {A : List Addr} (hA : ∀ a ∈ A, a < lo)

theorem Stands.ext' {v : View α β} (hA : ∀ a ∈ A, a < lo) (hv : Stable v) {k : Nat} {h h' : Heap} {x : α} {y : β} (hh : Stands v k A h x y)
    (e : Ext h h') (hl : lo ≤ h.next) : Stands v k A h' x y :=
  hh.ext hv e fun a ha => Nat.lt_of_lt_of_le (hA a ha) hl

include hA in
theorem alloc_ptr {read : Heap → Addr → α} {v : View α β} {c : Cell} {h : Heap} {x : α} {y : β} (hv : Stable v)
    (hc : ∀ h' a, h'.cell a = c → read h' a = x) (hl : lo ≤ h.next) (hx : Stands v lo A h x y) :
    Gives (alloc c) h (.ok y) (Stands (View.ptr read v) lo A) := by
  refine (Gives.step (o := .ok y) (f := pure) (R := Stands (View.ptr read v) lo A) (Gives.alloc c h) ?_)
  rintro h' a e ⟨rfl, hn, hcell⟩
  have hx' := hx.ext' hA hv e hl
  have hr := hc h' _ hcell
  refine Gives.pure ⟨?_, ?_, ?_⟩
  · simp only [View.ptr, hr]; exact hx'.load
  · simp only [View.ptr, hr, List.mem_cons]
    rintro b (rfl | hb)
    · exact ⟨hl, by omega⟩
    · exact hx'.cells b hb
  · simp only [View.ptr, hr]; exact hx'.arrays

theorem alloc_leaf {read : Heap → Addr → α} {c : Cell} {h : Heap} {x : α} (hc : ∀ h' a, h'.cell a = c → read h' a = x) (hl : lo ≤ h.next) :
    Gives (alloc c) h (.ok x) (Stands (leaf read) lo A) := by
  refine (Gives.step (o := .ok x) (f := pure) (R := Stands (leaf read) lo A) (Gives.alloc c h) ?_)
  rintro h' a e ⟨rfl, hn, hcell⟩
  refine Gives.pure ⟨hc h' _ hcell, ?_, ?_⟩
  · simp only [leaf, List.mem_singleton]
    rintro b rfl
    exact ⟨hl, by omega⟩
  · simp [leaf]

/-- An integer or nothing. Proof device: models no code. -/
def optInt : View (Option Addr) (Option Int) := ⟨fun h x => x.map h.int, fun _ x => x.toList, fun _ _ => []⟩

theorem stable_optInt : Stable optInt := fun _ _ _ hc _ => ⟨map_int hc, rfl, rfl⟩

theorem copyInt_gives {h : Heap} {x : Option Addr} {y : Option Int} (hl : lo ≤ h.next) (hx : optInt.load h x = y) :
    Gives (copyInt x) h (.ok y) (Stands optInt lo A) := by
  subst hx
  cases x with
  | none => exact Gives.pure ⟨rfl, by simp [optInt], by simp [optInt]⟩
  | some a =>
    simp only [copyInt]
    refine Gives.step (Gives.look _ h) ?_
    rintro h' i - ⟨rfl, rfl⟩
    refine Gives.step (Gives.alloc _ _) ?_
    rintro h'' b - ⟨rfl, hn, hcell⟩
    refine Gives.pure ⟨?_, ?_, ?_⟩
    · simp only [optInt, Option.map_some, Heap.int, hcell]
    · simp only [optInt, Option.toList_some, List.mem_singleton]
      rintro c rfl
      exact ⟨hl, by omega⟩
    · simp [optInt]

include hA in
theorem routeCopy_gives {h : Heap} {r : HRoute} {y : Route} (hl : lo ≤ h.next) (hr : Stands viewRoute 0 A h r y) :
    Gives r.copy h (.ok y.copy) (Stands viewRoute lo A) := by
  simp only [HRoute.copy, Route.copy_eq]
  refine Gives.step (copyInt_gives (A := A) hl (y := y.table) (by rw [← hr.load]; rfl)) ?_
  intro h1 t e1 ht
  have hr1 := hr.ext' hA stable_route e1 hl
  have hl1 := Nat.le_trans hl e1.next
  refine Gives.step (copyInt_gives (A := A) hl1 (y := y.scope) (by rw [← hr1.load]; rfl)) ?_
  intro h2 s e2 hs
  have hr2 := hr1.ext' hA stable_route e2 hl1
  have ht2 := ht.ext' hA stable_optInt e2 hl1
  have q1 := ht2.load
  have q2 := hs.load
  have q3 := hr2.load
  simp only [optInt] at q1 q2
  refine Gives.pure ⟨?_, ?_, ?_⟩
  · simp only [viewRoute, q1, q2]
    rw [← q3]
    rfl
  · simp only [viewRoute, List.mem_append]
    rintro a (ha | ha)
    · exact ht2.cells a ha
    · exact hs.cells a ha
  · exact hr2.arrays

include hA in
theorem copyRoute_gives {h : Heap} {a : Addr} {y : Route} (hl : lo ≤ h.next) (hr : Stands (View.ptr Heap.route viewRoute) 0 A h a y) :
    Gives (copyRoute a) h (.ok y.copy) (Stands (View.ptr Heap.route viewRoute) lo A) := by
  simp only [copyRoute]
  refine Gives.step (Gives.look _ h) ?_
  rintro h' r - ⟨rfl, rfl⟩
  refine Gives.step (routeCopy_gives hA hl (y := y) ⟨hr.load, fun b hb => hr.cells b (List.mem_cons_of_mem _ hb), hr.arrays⟩) ?_
  intro h1 r' e1 hr'
  exact alloc_ptr hA stable_route read_route (Nat.le_trans hl e1.next) hr'

include hA in
theorem dnsCopy_gives {h : Heap} {d : HDns} {y : Dns} (hl : lo ≤ h.next) (hd : Stands viewDns 0 A h d y) :
    Gives d.copy h (.ok y) (Stands viewDns lo A) := by
  simp only [HDns.copy]
  refine Gives.step (Gives.look _ h) ?_
  rintro h' _ - ⟨rfl, rfl⟩
  refine Gives.step (alloc_leaf (A := A) (read := Heap.strs) (x := y.nameservers) ?_ hl) ?_
  · intro h' a e; simp only [Heap.strs, e, ← hd.load]; rfl
  intro h1 a1 e1 ha1
  have hd1 := hd.ext' hA stable_dns e1 hl
  have hl1 := Nat.le_trans hl e1.next
  refine Gives.step (Gives.look _ h1) ?_
  rintro h' _ - ⟨rfl, rfl⟩
  refine Gives.step (alloc_leaf (A := A) (read := Heap.strs) (x := y.search) ?_ hl1) ?_
  · intro h' a e; simp only [Heap.strs, e, ← hd1.load]; rfl
  intro h2 a2 e2 ha2
  have hd2 := hd1.ext' hA stable_dns e2 hl1
  have hl2 := Nat.le_trans hl1 e2.next
  refine Gives.step (Gives.look _ h2) ?_
  rintro h' _ - ⟨rfl, rfl⟩
  refine Gives.step (alloc_leaf (A := A) (read := Heap.strs) (x := y.options) ?_ hl2) ?_
  · intro h' a e; simp only [Heap.strs, e, ← hd2.load]; rfl
  intro h3 a3 e3 ha3
  have ha1 := (ha1.ext' hA (stable_leaf one_strs) e2 hl1).ext' hA (stable_leaf one_strs) e3 hl2
  have ha2 := ha2.ext' hA (stable_leaf one_strs) e3 hl2
  refine Gives.pure ⟨?_, ?_, ?_⟩
  · have q1 := ha1.load
    have q2 := ha2.load
    have q3 := ha3.load
    simp only [leaf] at q1 q2 q3
    simp only [viewDns, q1, q2, q3]
    rw [← hd.load]
    rfl
  · simp only [viewDns, List.mem_cons, List.not_mem_nil, or_false]
    rintro b (rfl | rfl | rfl)
    · exact ha1.cells _ (by simp [leaf])
    · exact ha2.cells _ (by simp [leaf])
    · exact ha3.cells _ (by simp [leaf])
  · simp [viewDns]

/-- A loop over values. Proof device: models no code. -/
def eachV (g : β → Out δ) : List β → Out (List δ)
  | [] => .ok []
  | b :: l => g b >>= fun d => eachV g l >>= fun ds => .ok (d :: ds)

include hA in
theorem each_gives {v : View α β} {w : View γ δ} {f : α → HM γ} {g : β → Out δ} (hv : Stable v) (hw : Stable w)
    (hf : ∀ h a b, lo ≤ h.next → Stands v 0 A h a b → Gives (f a) h (g b) (Stands w lo A)) {h : Heap} {l : List α} {m : List β}
    (hl : lo ≤ h.next) (hm : Stands v.list 0 A h l m) : Gives (each f l) h (eachV g m) (Stands w.list lo A) := by
  induction l generalizing h m with
  | nil =>
    have := hm.load
    simp only [View.list, List.map_nil] at this
    subst this
    exact Gives.pure ⟨rfl, by simp [View.list], by simp [View.list]⟩
  | cons a l ih =>
    have hload := hm.load
    have hcells := hm.cells
    have harr := hm.arrays
    simp only [View.list, List.map_cons, List.flatMap_cons, List.mem_append] at hload hcells harr
    subst hload
    simp only [each, eachV]
    refine Gives.bind (hf h a _ hl ⟨rfl, fun b hb => hcells b (.inl hb), fun b hb => harr b (.inl hb)⟩) ?_
    intro h1 c d e1 hc
    have hl1 := Nat.le_trans hl e1.next
    have htl : Stands v.list 0 A h l (l.map (v.load h)) := ⟨rfl, fun b hb => hcells b (.inr hb), fun b hb => harr b (.inr hb)⟩
    refine Gives.bind (ih hl1 (htl.ext' hA (stable_list hv) e1 hl)) ?_
    intro h2 cs ds e2 hcs
    have hc2 := hc.ext' hA hw e2 hl1
    refine Gives.pure ⟨?_, ?_, ?_⟩
    · have := hcs.load
      simp only [View.list] at this
      simp only [View.list, List.map_cons, hc2.load, this]
    · simp only [View.list, List.flatMap_cons, List.mem_append]
      rintro b (hb | hb)
      · exact hc2.cells b hb
      · exact hcs.cells b hb
    · simp only [View.list, List.flatMap_cons, List.mem_append]
      rintro b (hb | hb)
      · exact hc2.arrays b hb
      · exact hcs.arrays b hb

theorem Stands.some {v : View α β} {k : Nat} {h : Heap} {x : α} {y : β} (hh : Stands v k A h x y) : Stands v.opt k A h (.some x) (.some y) := by
  refine ⟨by simp only [View.opt, Option.map_some, hh.load], ?_, ?_⟩
  · simpa [View.opt] using hh.cells
  · simpa [View.opt] using hh.arrays

theorem Stands.of_some {v : View α β} {k : Nat} {h : Heap} {x : α} {y : Option β} (hh : Stands v.opt k A h (.some x) y) :
    y = .some (v.load h x) ∧ Stands v k A h x (v.load h x) := by
  have h1 := hh.load
  simp only [View.opt, Option.map_some] at h1
  refine ⟨h1.symm, rfl, ?_, ?_⟩
  · simpa [View.opt] using hh.cells
  · simpa [View.opt] using hh.arrays

theorem Stands.none {v : View α β} {k : Nat} {h : Heap} : Stands v.opt k A h .none .none := ⟨rfl, by simp [View.opt], by simp [View.opt]⟩

theorem Stands.of_none {v : View α β} {k : Nat} {h : Heap} {y : Option β} (hh : Stands v.opt k A h .none y) : y = .none := hh.load.symm

theorem eachV_pure (g : β → δ) (l : List β) : eachV (fun b => .ok (g b)) l = .ok (l.map g) := by
  induction l with
  | nil => rfl
  | cons b l ih => simp only [eachV, Out.bind_ok, ih, List.map_cons]

theorem eachV_deref (g : β → δ) (l : List (Option β)) :
    eachV (fun | .none => .panic | .some b => .ok (.some (g b))) l = mapDeref g l := by
  induction l with
  | nil => rfl
  | cons b l ih =>
    cases b with
    | none => rfl
    | some b =>
      simp only [eachV, Out.bind_ok, ih, mapDeref]
      cases mapDeref g l <;> rfl

include hA in
theorem eachCopy_gives {v : View Addr β} {w : View Addr δ} {f : Addr → HM Addr} {g : β → δ} (hv : Stable v) (hw : Stable w)
    (hf : ∀ h a b, lo ≤ h.next → Stands v 0 A h a b → Gives (f a) h (.ok (g b)) (Stands w lo A)) {h : Heap} {l : List (Option Addr)}
    {m : List (Option β)} (hl : lo ≤ h.next) (hm : Stands v.opt.list 0 A h l m) :
    Gives (eachCopy f l) h (.ok (m.map fun x => x.map g)) (Stands w.opt.list lo A) := by
  rw [← eachV_pure]
  refine each_gives hA (stable_opt hv) (stable_opt hw) ?_ hl hm
  intro h a b hl hab
  cases a with
  | none => rw [hab.of_none]; exact Gives.pure Stands.none
  | some a =>
    obtain ⟨h1, h2⟩ := hab.of_some
    subst h1
    refine Gives.step (hf h a _ hl h2) ?_
    intro h' c e hc
    exact Gives.pure hc.some

include hA in
theorem eachDeref_gives {v : View Addr β} {w : View Addr δ} {f : Addr → HM Addr} {g : β → δ} (hv : Stable v) (hw : Stable w)
    (hf : ∀ h a b, lo ≤ h.next → Stands v 0 A h a b → Gives (f a) h (.ok (g b)) (Stands w lo A)) {h : Heap} {l : List (Option Addr)}
    {m : List (Option β)} (hl : lo ≤ h.next) (hm : Stands v.opt.list 0 A h l m) :
    Gives (eachDeref f l) h (mapDeref g m) (Stands w.opt.list lo A) := by
  rw [← eachV_deref]
  refine each_gives hA (stable_opt hv) (stable_opt hw) ?_ hl hm
  intro h a b hl hab
  cases a with
  | none => rw [hab.of_none]; trivial
  | some a =>
    obtain ⟨h1, h2⟩ := hab.of_some
    subst h1
    refine Gives.step (hf h a _ hl h2) ?_
    intro h' c e hc
    exact Gives.pure hc.some


/-! ### the converters -/

theorem Stands.deref {read : Heap → Addr → α} {v : View α β} {h : Heap} {a : Addr} {y : β} (hh : Stands (View.ptr read v) 0 A h a y) :
    Stands v 0 A h (read h a) y := ⟨hh.load, fun b hb => hh.cells b (List.mem_cons_of_mem _ hb), hh.arrays⟩

include hA in
theorem eachRoute_gives {h : Heap} {l : List HRoute} {m : List Route} (hl : lo ≤ h.next) (hm : Stands viewRoute.list 0 A h l m) :
    Gives (each HRoute.copy l) h (.ok (m.map Route.copy)) (Stands viewRoute.list lo A) := by
  rw [← eachV_pure]
  exact each_gives hA stable_route stable_route (fun h a b hl hab => routeCopy_gives hA hl hab) hl hm

theorem Stands.routes020 {k : Nat} {h : Heap} {i : HIp020} {y : Ip020} (hh : Stands viewIp020 k A h i y) :
    Stands (View.ptr Heap.routeArr viewRoute.list) k A h i.routes y.routes := by
  refine ⟨?_, hh.cells, fun b hb => hh.arrays b (List.mem_append_right _ hb)⟩
  rw [← hh.load]; rfl

theorem ip020_holds {k : Nat} {h : Heap} {i : HIp020} {y : Ip020} {ra : Addr} {rs : List Route} (hi : Stands viewIp020 0 A h i y)
    (hra : Stands (View.ptr Heap.routeArr viewRoute.list) k A h ra rs) :
    Stands viewIp020 k A h { ip := i.ip, mask := i.mask, gateway := i.gateway, routes := ra } { y with routes := rs } := by
  refine ⟨?_, hra.cells, ?_⟩
  · have q := hra.load
    simp only [viewIp020, q]
    rw [← hi.load]
    rfl
  · intro b hb
    simp only [viewIp020, List.mem_append] at hb
    rcases hb with hb | hb
    · exact hi.arrays b (List.mem_append_left _ hb)
    · exact hra.arrays b hb

include hA in
theorem copyIp020_gives {h : Heap} {x : Option Addr} {y : Option Ip020} (hl : lo ≤ h.next)
    (hx : Stands (View.ptr Heap.ip020 viewIp020).opt 0 A h x y) :
    Gives (copyIp020 x) h (.ok (y.map Ip020.copy)) (Stands (View.ptr Heap.ip020 viewIp020).opt lo A) := by
  cases x with
  | none => rw [hx.of_none]; exact Gives.pure Stands.none
  | some a =>
    obtain ⟨rfl, hx2⟩ := hx.of_some
    simp only [copyIp020, map_ip020copy]
    refine Gives.step (Gives.look _ h) ?_
    rintro h' i - ⟨rfl, rfl⟩
    refine Gives.step (Gives.look _ _) ?_
    rintro h' rs - ⟨rfl, rfl⟩
    have hi := hx2.deref
    refine Gives.step (eachRoute_gives hA hl hi.routes020.deref) ?_
    intro h1 rs' e1 hrs
    have hi1 := hi.ext' hA stable_ip020 e1 hl
    have hl1 := Nat.le_trans hl e1.next
    refine Gives.step (alloc_ptr hA (read := Heap.routeArr) (stable_list stable_route) read_routeArr hl1 hrs) ?_
    intro h2 ra e2 hra
    have hi2 := hi1.ext' hA stable_ip020 e2 hl1
    have hl2 := Nat.le_trans hl1 e2.next
    refine Gives.step (alloc_ptr hA (read := Heap.ip020) stable_ip020 read_ip020 hl2 (ip020_holds hi2 hra)) ?_
    intro h3 b e3 hb
    rw [List.map_congr_left (fun r _ => Route.copy_eq r), List.map_id'] at hb
    exact Gives.pure hb.some

include hA in
theorem from020_gives {h : Heap} {x : Option Addr} {y : Option Ip020} {v : Bytes} (hl : lo ≤ h.next)
    (hx : Stands (View.ptr Heap.ip020 viewIp020).opt 0 A h x y) :
    Gives (hFrom020 v x) h (.ok ((match (generalizing := false) y with | .some i => [.some (convert020IPConfig i v)] | .none => []),
        (match (generalizing := false) y with | .some i => i.routes.map (fun x => some x.copy) | .none => [])))
      (fun h p q => Stands (View.ptr Heap.ip040 viewIp040).opt.list lo A h p.1 q.1 ∧
        Stands (View.ptr Heap.route viewRoute).opt.list lo A h p.2 q.2) := by
  cases x with
  | none =>
    rw [hx.of_none]
    exact Gives.pure ⟨⟨rfl, by simp [View.list], by simp [View.list]⟩, ⟨rfl, by simp [View.list], by simp [View.list]⟩⟩
  | some a =>
    obtain ⟨rfl, hx2⟩ := hx.of_some
    simp only [hFrom020]
    refine Gives.step (Gives.look _ h) ?_
    rintro h' i - ⟨rfl, rfl⟩
    have hi := hx2.deref
    generalize (View.ptr Heap.ip020 viewIp020).load h' a = y at hi
    refine Gives.step (alloc_ptr hA (read := Heap.ip040) (v := viewIp040) (y := convert020IPConfig y v) stable_ip040 read_ip040 hl ?_) ?_
    · refine ⟨?_, by simp [viewIp040], fun b hb => hi.arrays b (List.mem_append_left _ hb)⟩
      rw [← hi.load]; rfl
    intro h1 b e1 hb
    have hi1 := hi.ext' hA stable_ip020 e1 hl
    have hl1 := Nat.le_trans hl e1.next
    refine Gives.step (Gives.look _ _) ?_
    rintro h' rs - ⟨rfl, rfl⟩
    refine Gives.step (b := y.routes.map fun x => .some x.copy) (Q := Stands (View.ptr Heap.route viewRoute).opt.list lo A) ?_ ?_
    · rw [← eachV_pure]
      refine each_gives hA stable_route (stable_opt stable_routePtr) ?_ hl1 hi1.routes020.deref
      intro h a b hl hab
      refine Gives.step (routeCopy_gives hA hl hab) ?_
      intro h1 r e1 hr
      refine Gives.step (alloc_ptr hA (read := Heap.route) stable_route read_route (Nat.le_trans hl e1.next) hr) ?_
      intro h2 p e2 hp
      exact Gives.pure hp.some
    intro h2 ps e2 hps
    refine Gives.pure ⟨?_, hps⟩
    have hb2 := (hb.ext' hA stable_ip040ptr e2 hl1).some
    exact ⟨by simpa [View.list] using hb2.load, by simpa [View.list] using hb2.cells, by simpa [View.list] using hb2.arrays⟩

theorem Stands.append {v : View α β} {k : Nat} {h : Heap} {l l' : List α} {m m' : List β} (hl : Stands v.list k A h l m)
    (hl' : Stands v.list k A h l' m') : Stands v.list k A h (l ++ l') (m ++ m') := by
  refine ⟨?_, ?_, ?_⟩
  · have q := hl.load
    have q' := hl'.load
    simp only [View.list] at q q'
    simp only [View.list, List.map_append, q, q']
  · simp only [View.list, List.flatMap_append, List.mem_append]
    rintro b (hb | hb)
    · exact hl.cells b hb
    · exact hl'.cells b hb
  · simp only [View.list, List.flatMap_append, List.mem_append]
    rintro b (hb | hb)
    · exact hl.arrays b hb
    · exact hl'.arrays b hb

include hA in
theorem lists_gives {vi : View Addr β} {wi : View Addr β'} {vp : View Addr γ} {wp : View Addr γ'} (svi : Stable vi) (swi : Stable wi)
    (svp : Stable vp) (swp : Stable wp) {ifF ipF : List (Option Addr) → HM (List (Option Addr))} {ifV : List (Option β) → Out (List (Option β'))}
    {ipV : List (Option γ) → Out (List (Option γ'))}
    (hif : ∀ h l m, lo ≤ h.next → Stands vi.opt.list 0 A h l m → Gives (ifF l) h (ifV m) (Stands wi.opt.list lo A))
    (hip : ∀ h l m, lo ≤ h.next → Stands vp.opt.list 0 A h l m → Gives (ipF l) h (ipV m) (Stands wp.opt.list lo A))
    {h : Heap} {r : HNew} {to : Bytes} {is : List (Option β)} {ps : List (Option γ)} {rs : List (Option Route)} {d : Dns} (hl : lo ≤ h.next)
    (hi : Stands vi.slice 0 A h r.interfaces is) (hp : Stands vp.slice 0 A h r.ips ps)
    (hr : Stands (View.ptr Heap.route viewRoute).slice 0 A h r.routes rs) (hd : Stands viewDns 0 A h r.dns d) :
    Gives (hConvertLists ifF ipF r to) h (ifV is >>= fun is' => ipV ps >>= fun ps' => .ok (is', ps'))
      (fun h x y => x.cniVersion = to ∧ Stands wi.slice lo A h x.interfaces y.1 ∧ Stands wp.slice lo A h x.ips y.2 ∧
        Stands (View.ptr Heap.route viewRoute).slice lo A h x.routes rs ∧ Stands viewDns lo A h x.dns d) := by
  have swis := stable_slice swi
  have swps := stable_slice swp
  have srs := stable_slice stable_routePtr
  simp only [hConvertLists]
  refine Gives.step (dnsCopy_gives hA hl hd) ?_
  intro h1 d' e1 hd1
  have hl1 := Nat.le_trans hl e1.next
  have hi1 := hi.ext' hA (stable_slice svi) e1 hl
  have hp1 := hp.ext' hA (stable_slice svp) e1 hl
  have hr1 := hr.ext' hA srs e1 hl
  refine Gives.step (Gives.look _ _) ?_
  rintro _ _ - ⟨rfl, rfl⟩
  refine Gives.bind (hif _ _ _ hl1 hi1.deref) ?_
  intro h2 m1 is' e2 hm1
  have hl2 := Nat.le_trans hl1 e2.next
  have hd2 := hd1.ext' hA stable_dns e2 hl1
  have hp2 := hp1.ext' hA (stable_slice svp) e2 hl1
  have hr2 := hr1.ext' hA srs e2 hl1
  refine Gives.step (alloc_ptr hA (read := Heap.ptrs) (stable_list (stable_opt swi)) read_ptrs hl2 hm1) ?_
  intro h3 a1 e3 ha1
  have hl3 := Nat.le_trans hl2 e3.next
  have hd3 := hd2.ext' hA stable_dns e3 hl2
  have hp3 := hp2.ext' hA (stable_slice svp) e3 hl2
  have hr3 := hr2.ext' hA srs e3 hl2
  refine Gives.step (Gives.look _ _) ?_
  rintro _ _ - ⟨rfl, rfl⟩
  refine Gives.bind (hip _ _ _ hl3 hp3.deref) ?_
  intro h4 m2 ps' e4 hm2
  have hl4 := Nat.le_trans hl3 e4.next
  have hd4 := hd3.ext' hA stable_dns e4 hl3
  have hr4 := hr3.ext' hA srs e4 hl3
  have ha14 := Stands.ext' hA swis ha1 e4 hl3
  refine Gives.step (alloc_ptr hA (read := Heap.ptrs) (stable_list (stable_opt swp)) read_ptrs hl4 hm2) ?_
  intro h5 a2 e5 ha2
  have hl5 := Nat.le_trans hl4 e5.next
  have hd5 := hd4.ext' hA stable_dns e5 hl4
  have hr5 := hr4.ext' hA srs e5 hl4
  have ha15 := Stands.ext' hA swis ha14 e5 hl4
  refine Gives.step (Gives.look _ _) ?_
  rintro _ _ - ⟨rfl, rfl⟩
  refine Gives.step (eachCopy_gives hA stable_routePtr stable_routePtr (g := Route.copy) (fun h a b hl hab => copyRoute_gives hA hl hab)
    hl5 hr5.deref) ?_
  intro h6 m3 e6 hm3
  rw [map_routecopy] at hm3
  have hl6 := Nat.le_trans hl5 e6.next
  have hd6 := hd5.ext' hA stable_dns e6 hl5
  have ha16 := Stands.ext' hA swis ha15 e6 hl5
  have ha26 := Stands.ext' hA swps ha2 e6 hl5
  refine Gives.step (alloc_ptr hA (read := Heap.ptrs) (stable_list (stable_opt stable_routePtr)) read_ptrs hl6 hm3) ?_
  intro h7 a3 e7 ha3
  exact Gives.pure ⟨rfl, Stands.ext' hA swis ha16 e7 hl6, Stands.ext' hA swps ha26 e7 hl6, ha3, hd6.ext' hA stable_dns e7 hl6⟩

theorem Stands.optInt040 {k : Nat} {h : Heap} {i : HIp040} {y : Ip040} (hh : Stands viewIp040 k A h i y) : optInt.load h i.interface = y.interface := by
  rw [← hh.load]; rfl

theorem Stands.optInt100 {k : Nat} {h : Heap} {i : HIp100} {y : Ip100} (hh : Stands viewIp100 k A h i y) : optInt.load h i.interface = y.interface := by
  rw [← hh.load]; rfl

include hA in
theorem copyIp040_gives {h : Heap} {a : Addr} {y : Ip040} (hl : lo ≤ h.next) (ha : Stands (View.ptr Heap.ip040 viewIp040) 0 A h a y) :
    Gives (copyIp040 a) h (.ok y) (Stands (View.ptr Heap.ip040 viewIp040) lo A) := by
  simp only [copyIp040]
  refine Gives.step (Gives.look _ _) ?_
  rintro _ _ - ⟨rfl, rfl⟩
  have hi := ha.deref
  refine Gives.step (copyInt_gives (A := A) hl hi.optInt040) ?_
  intro h1 x e1 hx
  have hi1 := hi.ext' hA stable_ip040 e1 hl
  refine alloc_ptr hA stable_ip040 read_ip040 (Nat.le_trans hl e1.next) ⟨?_, hx.cells, hi1.arrays⟩
  have q := hx.load
  simp only [optInt] at q
  simp only [viewIp040, q]
  rw [← hi1.load]
  rfl

include hA in
theorem ipFrom040_gives {h : Heap} {a : Addr} {y : Ip040} (hl : lo ≤ h.next) (ha : Stands (View.ptr Heap.ip040 viewIp040) 0 A h a y) :
    Gives (hIPConfigFrom040 a) h (.ok (convertIPConfigFrom040 y)) (Stands (View.ptr Heap.ip100 viewIp100) lo A) := by
  simp only [hIPConfigFrom040]
  refine Gives.step (Gives.look _ _) ?_
  rintro _ _ - ⟨rfl, rfl⟩
  have hi := ha.deref
  refine Gives.step (copyInt_gives (A := A) hl hi.optInt040) ?_
  intro h1 x e1 hx
  have hi1 := hi.ext' hA stable_ip040 e1 hl
  refine alloc_ptr hA stable_ip100 read_ip100 (Nat.le_trans hl e1.next) ⟨?_, hx.cells, hi1.arrays⟩
  have q := hx.load
  simp only [optInt] at q
  simp only [viewIp100, q]
  rw [← hi1.load]
  rfl

include hA in
theorem ipTo040_gives {h : Heap} {a : Addr} {y : Ip100} (hl : lo ≤ h.next) (ha : Stands (View.ptr Heap.ip100 viewIp100) 0 A h a y) :
    Gives (hIPConfigTo040 a) h (.ok (convertIPConfigTo040 y)) (Stands (View.ptr Heap.ip040 viewIp040) lo A) := by
  simp only [hIPConfigTo040]
  refine Gives.step (Gives.look _ _) ?_
  rintro _ _ - ⟨rfl, rfl⟩
  refine Gives.step (Gives.look _ _) ?_
  rintro _ _ - ⟨rfl, rfl⟩
  have hi := ha.deref
  refine Gives.step (copyInt_gives (A := A) hl hi.optInt100) ?_
  intro h1 x e1 hx
  have hi1 := hi.ext' hA stable_ip100 e1 hl
  refine alloc_ptr hA stable_ip040 read_ip040 (Nat.le_trans hl e1.next) ⟨?_, hx.cells, hi1.arrays⟩
  have q := hx.load
  have q2 := hi.load
  simp only [optInt] at q
  have q3 : (viewIp100.load _ _).address.ip = y.address.ip := congrArg (fun i => i.address.ip) hi.load
  have q4 : (_ : Bytes) = y.address.ip := q3
  simp only [viewIp040, q]
  simp only [viewIp100] at q3
  rw [q3, ← hi1.load]
  rfl

theorem intfCopy_gives {h : Heap} {a : Addr} {y : Intf040} (hl : lo ≤ h.next) (ha : Stands (leaf Heap.intf040) 0 A h a y) :
    Gives (copyIntf040 a) h (.ok y) (Stands (leaf Heap.intf040) lo A) := by
  simp only [copyIntf040]
  refine Gives.step (Gives.look _ _) ?_
  rintro _ _ - ⟨rfl, rfl⟩
  have q : Heap.intf040 _ a = y := ha.load
  rw [q]
  exact alloc_leaf read_intf040 hl

theorem intfFrom040_gives {h : Heap} {a : Addr} {y : Intf040} (hl : lo ≤ h.next) (ha : Stands (leaf Heap.intf040) 0 A h a y) :
    Gives (hInterfaceFrom040 a) h (.ok (convertInterfaceFrom040 y)) (Stands (leaf Heap.intf100) lo A) := by
  simp only [hInterfaceFrom040]
  refine Gives.step (Gives.look _ _) ?_
  rintro _ _ - ⟨rfl, rfl⟩
  have q : Heap.intf040 _ a = y := ha.load
  rw [q]
  exact alloc_leaf read_intf100 hl

theorem intfTo040_gives {h : Heap} {a : Addr} {y : Intf100} (hl : lo ≤ h.next) (ha : Stands (leaf Heap.intf100) 0 A h a y) :
    Gives (hInterfaceTo040 a) h (.ok (convertInterfaceTo040 y)) (Stands (leaf Heap.intf040) lo A) := by
  simp only [hInterfaceTo040]
  refine Gives.step (Gives.look _ _) ?_
  rintro _ _ - ⟨rfl, rfl⟩
  have q : Heap.intf100 _ a = y := ha.load
  rw [q]
  exact alloc_leaf read_intf040 hl

/-- A 0.2.0 address under construction. Proof device: models no code. -/
def viewPick : View HPick Ip020 where
  load h i := { ip := ⟨h.bytes i.ip, h.bytes i.mask⟩, gateway := h.bytes i.gateway, routes := viewRoute.list.load h i.routes }
  cells h i := viewRoute.list.cells h i.routes
  arrays h i := [i.ip, i.mask, i.gateway] ++ viewRoute.list.arrays h i.routes

theorem stable_pick : Stable viewPick := by
  intro h h' x hc ha
  simp only [viewPick, List.mem_append] at hc ha
  obtain ⟨h1, h2, h3⟩ := stable_list stable_route h h' x.routes hc (fun b hb => ha b (.inr hb))
  simp only [viewPick, h1, h2, h3, ha x.ip (by simp), ha x.mask (by simp), ha x.gateway (by simp), and_self]

/-- Two 0.2.0 addresses under construction. Proof device: models no code. -/
def StandsPicks (lo : Nat) (A : List Addr) (h : Heap) (p : Option HPick × Option HPick) (q : Option Ip020 × Option Ip020) : Prop :=
  Stands viewPick.opt lo A h p.1 q.1 ∧ Stands viewPick.opt lo A h p.2 q.2

theorem Stands.isNone {v : View α β} {k : Nat} {h : Heap} {x : Option α} {y : Option β} (hh : Stands v.opt k A h x y) : x.isNone = y.isNone := by
  have q := hh.load
  simp only [View.opt] at q
  rw [← q]; simp

theorem Stands.isSome {v : View α β} {k : Nat} {h : Heap} {x : Option α} {y : Option β} (hh : Stands v.opt k A h x y) : x.isSome = y.isSome := by
  have q := hh.load
  simp only [View.opt] at q
  rw [← q]; simp

theorem Stands.cons {v : View α β} {k : Nat} {h : Heap} {a : α} {l : List α} {m : List β} (hh : Stands v.list k A h (a :: l) m) :
    ∃ b m', m = b :: m' ∧ Stands v k A h a b ∧ Stands v.list k A h l m' := by
  have hload := hh.load
  have hcells := hh.cells
  have harr := hh.arrays
  simp only [View.list, List.map_cons, List.flatMap_cons, List.mem_append] at hload hcells harr
  exact ⟨_, _, hload.symm, ⟨rfl, fun b hb => hcells b (.inl hb), fun b hb => harr b (.inl hb)⟩,
    ⟨rfl, fun b hb => hcells b (.inr hb), fun b hb => harr b (.inr hb)⟩⟩

theorem Stands.nil {v : View α β} {k : Nat} {h : Heap} {m : List β} (hh : Stands v.list k A h [] m) : m = [] := hh.load.symm

theorem pickIPs_gives {h : Heap} {l : List (Option Addr)} {m : List (Option Ip040)} {p : Option HPick × Option HPick}
    {q : Option Ip020 × Option Ip020} (hm : Stands (View.ptr Heap.ip040 viewIp040).opt.list 0 A h l m) (hp : StandsPicks lo A h p q) :
    Gives (hPickIPs l p.1 p.2) h (pickIPs m q.1 q.2) (fun h' x y => h' = h ∧ StandsPicks lo A h' x y) := by
  induction l generalizing m p q with
  | nil => rw [hm.nil]; exact Gives.pure ⟨rfl, hp⟩
  | cons a l ih =>
    obtain ⟨b, m', rfl, hab, hm'⟩ := hm.cons
    cases a with
    | none => rw [hab.of_none]; trivial
    | some a =>
      obtain ⟨rfl, hab2⟩ := hab.of_some
      have hi := hab2.deref
      generalize (View.ptr Heap.ip040 viewIp040).load h a = y at hi
      simp only [hPickIPs, pickIPs]
      refine Gives.step (Gives.look _ _) ?_
      rintro h' x - ⟨rfl, hx⟩
      rw [← hx] at hi
      have hc : Stands viewPick lo A h' { ip := x.ip, mask := x.mask, gateway := x.gateway, routes := [] }
          { ip := y.address, gateway := y.gateway } := by
        refine ⟨?_, by simp [viewPick, View.list], ?_⟩
        · rw [← hi.load]; rfl
        · simpa [viewPick, View.list, viewIp040] using hi.arrays
      have hv : x.version = y.version := by rw [← hi.load]; rfl
      have key : StandsPicks lo A h'
          (if x.version = b!"4" ∧ p.1.isNone = true then (some { ip := x.ip, mask := x.mask, gateway := x.gateway, routes := [] }, p.2)
            else if x.version = b!"6" ∧ p.2.isNone = true then (p.1, some { ip := x.ip, mask := x.mask, gateway := x.gateway, routes := [] })
            else (p.1, p.2))
          (if y.version = b!"4" ∧ q.1 = .none then (some { ip := y.address, gateway := y.gateway }, q.2)
            else if y.version = b!"6" ∧ q.2 = .none then (q.1, some { ip := y.address, gateway := y.gateway })
            else (q.1, q.2)) := by
        rw [hp.1.isNone, hp.2.isNone, hv]
        simp only [Option.isNone_iff_eq_none]
        split
        · exact ⟨hc.some, hp.2⟩
        · split
          · exact ⟨hp.1, hc.some⟩
          · exact hp
      generalize (if x.version = b!"4" ∧ p.1.isNone = true then _ else _) = P at key ⊢
      generalize (if y.version = b!"4" ∧ q.1 = .none then _ else _) = Q at key ⊢
      obtain ⟨Q1, Q2⟩ := Q
      simp only
      rw [key.1.isSome, key.2.isSome]
      split
      · exact Gives.pure ⟨rfl, key⟩
      · exact ih hm' key

theorem Stands.addRoute {k : Nat} {h : Heap} {x : Option HPick} {y : Option Ip020} {c : HRoute} {d : Route} (hh : Stands viewPick.opt k A h x y)
    (hc : Stands viewRoute k A h c d) : Stands viewPick.opt k A h (x.map fun x => { x with routes := x.routes ++ [c] })
      (y.map fun x => { x with routes := x.routes ++ [d] }) := by
  cases x with
  | none => rw [hh.of_none]; exact Stands.none
  | some x =>
    obtain ⟨rfl, hh2⟩ := hh.of_some
    generalize viewPick.load h x = z at hh2 ⊢
    have hr : Stands viewRoute.list k A h x.routes z.routes := by
      refine ⟨?_, hh2.cells, fun b hb => hh2.arrays b (List.mem_append_right _ hb)⟩
      rw [← hh2.load]; rfl
    have hs : Stands viewRoute.list k A h [c] [d] :=
      ⟨by simpa [View.list] using hc.load, by simpa [View.list] using hc.cells, by simpa [View.list] using hc.arrays⟩
    have hrs := hr.append hs
    refine Stands.some ⟨?_, hrs.cells, ?_⟩
    · have q := hrs.load
      simp only [viewPick, q]
      rw [← hh2.load]; rfl
    · intro b hb
      simp only [viewPick, List.mem_append] at hb
      rcases hb with hb | hb
      · exact hh2.arrays b (List.mem_append_left _ hb)
      · exact hrs.arrays b hb

theorem pickRoutes_gives {h : Heap} {l : List (Option Addr)} {m : List (Option Route)} {p1 p2 : Option HPick}
    {q1 q2 : Option Ip020} (hm : Stands (View.ptr Heap.route viewRoute).opt.list 0 A h l m) (hp1 : Stands viewPick.opt lo A h p1 q1)
    (hp2 : Stands viewPick.opt lo A h p2 q2) :
    Gives (hPickRoutes l p1 p2) h (pickRoutes m q1 q2) (fun h' x y => h' = h ∧ StandsPicks lo A h' x y) := by
  induction l generalizing m p1 p2 q1 q2 with
  | nil => rw [hm.nil]; exact Gives.pure ⟨rfl, hp1, hp2⟩
  | cons a l ih =>
    obtain ⟨b, m', rfl, hab, hm'⟩ := hm.cons
    cases a with
    | none => rw [hab.of_none]; trivial
    | some a =>
      obtain ⟨rfl, hab2⟩ := hab.of_some
      have hi := hab2.deref
      generalize (View.ptr Heap.route viewRoute).load h a = y at hi
      simp only [hPickRoutes, pickRoutes]
      refine Gives.step (Gives.look _ _) ?_
      rintro h' x - ⟨rfl, hx⟩
      refine Gives.step (Gives.look _ _) ?_
      rintro h' z - ⟨rfl, hz⟩
      rw [← hx] at hi
      have hz : z = y.dst.ip := by rw [hz, ← hi.load]; rfl
      have hc : Stands viewRoute lo A h'
          { dstIp := x.dstIp, dstMask := x.dstMask, gw := x.gw, mtu := 0, advmss := 0, priority := 0, table := .none, scope := .none }
          { dst := y.dst, gw := y.gw } := by
        refine ⟨?_, by simp [viewRoute], hi.arrays⟩
        rw [← hi.load]; rfl
      rw [hz, hp1.isSome, hp2.isSome]
      by_cases h1 : ((IP.to4 y.dst.ip).isSome && q1.isSome) = true
      · rw [if_pos h1, if_pos h1]
        exact ih hm' (hp1.addRoute hc) hp2
      · by_cases h2 : ((!(IP.to4 y.dst.ip).isSome) && q2.isSome) = true
        · rw [if_neg h1, if_neg h1, if_pos h2, if_pos h2]
          exact ih hm' hp1 (hp2.addRoute hc)
        · rw [if_neg h1, if_neg h1, if_neg h2, if_neg h2]
          exact ih hm' hp1 hp2

include hA in
theorem picked_gives {h : Heap} {x : Option HPick} {y : Option Ip020} (hl : lo ≤ h.next) (hx : Stands viewPick.opt lo A h x y) :
    Gives (hPicked x) h (.ok y) (Stands (View.ptr Heap.ip020 viewIp020).opt lo A) := by
  cases x with
  | none => rw [hx.of_none]; exact Gives.pure Stands.none
  | some x =>
    obtain ⟨rfl, hx2⟩ := hx.of_some
    generalize viewPick.load h x = z at hx2 ⊢
    simp only [hPicked]
    have hr : Stands viewRoute.list lo A h x.routes z.routes := by
      refine ⟨?_, hx2.cells, fun b hb => hx2.arrays b (List.mem_append_right _ hb)⟩
      rw [← hx2.load]; rfl
    refine Gives.step (alloc_ptr hA (read := Heap.routeArr) (stable_list stable_route) read_routeArr hl hr) ?_
    intro h1 ra e1 hra
    have hx3 := hx2.ext' hA stable_pick e1 hl
    refine Gives.step (alloc_ptr hA (read := Heap.ip020) (v := viewIp020) (y := z) stable_ip020 read_ip020 (Nat.le_trans hl e1.next) ?_) ?_
    · refine ⟨?_, hra.cells, ?_⟩
      · have q := hra.load
        simp only [viewIp020, q]
        rw [← hx3.load]; rfl
      · intro b hb
        simp only [viewIp020, List.mem_append] at hb
        rcases hb with hb | hb
        · exact hx3.arrays b (List.mem_append_left _ hb)
        · exact hra.arrays b hb
    intro h2 b e2 hb
    exact Gives.pure hb.some


theorem holds_040 {k : Nat} {h : Heap} {r : HNew} {y : R040} : Stands view040 k A h r y ↔ r.cniVersion = y.cniVersion ∧
    Stands (leaf Heap.intf040).slice k A h r.interfaces y.interfaces ∧ Stands (View.ptr Heap.ip040 viewIp040).slice k A h r.ips y.ips ∧
    Stands (View.ptr Heap.route viewRoute).slice k A h r.routes y.routes ∧ Stands viewDns k A h r.dns y.dns := by
  constructor
  · intro hh
    have hc := hh.cells
    have ha := hh.arrays
    simp only [view040, List.mem_append] at hc ha
    rw [← hh.load]
    exact ⟨rfl, ⟨rfl, fun b hb => hc b (.inl (.inl (.inl hb))), by rw [slice_leaf_arrays]; simp⟩,
      ⟨rfl, fun b hb => hc b (.inl (.inl (.inr hb))), fun b hb => ha b (.inl hb)⟩,
      ⟨rfl, fun b hb => hc b (.inl (.inr hb)), fun b hb => ha b (.inr hb)⟩,
      ⟨rfl, fun b hb => hc b (.inr hb), by simp [viewDns]⟩⟩
  · rintro ⟨h1, h2, h3, h4, h5⟩
    refine ⟨?_, ?_, ?_⟩
    · simp only [view040, h1, h2.load, h3.load, h4.load, h5.load]
    · simp only [view040, List.mem_append]
      rintro b (((hb | hb) | hb) | hb)
      · exact h2.cells b hb
      · exact h3.cells b hb
      · exact h4.cells b hb
      · exact h5.cells b hb
    · simp only [view040, List.mem_append]
      rintro b (hb | hb)
      · exact h3.arrays b hb
      · exact h4.arrays b hb

theorem holds_100 {k : Nat} {h : Heap} {r : HNew} {y : R100} : Stands view100 k A h r y ↔ r.cniVersion = y.cniVersion ∧
    Stands (leaf Heap.intf100).slice k A h r.interfaces y.interfaces ∧ Stands (View.ptr Heap.ip100 viewIp100).slice k A h r.ips y.ips ∧
    Stands (View.ptr Heap.route viewRoute).slice k A h r.routes y.routes ∧ Stands viewDns k A h r.dns y.dns := by
  constructor
  · intro hh
    have hc := hh.cells
    have ha := hh.arrays
    simp only [view100, List.mem_append] at hc ha
    rw [← hh.load]
    exact ⟨rfl, ⟨rfl, fun b hb => hc b (.inl (.inl (.inl hb))), by rw [slice_leaf_arrays]; simp⟩,
      ⟨rfl, fun b hb => hc b (.inl (.inl (.inr hb))), fun b hb => ha b (.inl hb)⟩,
      ⟨rfl, fun b hb => hc b (.inl (.inr hb)), fun b hb => ha b (.inr hb)⟩,
      ⟨rfl, fun b hb => hc b (.inr hb), by simp [viewDns]⟩⟩
  · rintro ⟨h1, h2, h3, h4, h5⟩
    refine ⟨?_, ?_, ?_⟩
    · simp only [view100, h1, h2.load, h3.load, h4.load, h5.load]
    · simp only [view100, List.mem_append]
      rintro b (((hb | hb) | hb) | hb)
      · exact h2.cells b hb
      · exact h3.cells b hb
      · exact h4.cells b hb
      · exact h5.cells b hb
    · simp only [view100, List.mem_append]
      rintro b (hb | hb)
      · exact h3.arrays b hb
      · exact h4.arrays b hb

theorem holds_020 {k : Nat} {h : Heap} {r : H020} {y : R020} : Stands view020 k A h r y ↔ r.cniVersion = y.cniVersion ∧
    Stands (View.ptr Heap.ip020 viewIp020).opt k A h r.ip4 y.ip4 ∧ Stands (View.ptr Heap.ip020 viewIp020).opt k A h r.ip6 y.ip6 ∧
    Stands viewDns k A h r.dns y.dns := by
  constructor
  · intro hh
    have hc := hh.cells
    have ha := hh.arrays
    simp only [view020, List.mem_append] at hc ha
    rw [← hh.load]
    exact ⟨rfl, ⟨rfl, fun b hb => hc b (.inl (.inl hb)), fun b hb => ha b (.inl hb)⟩,
      ⟨rfl, fun b hb => hc b (.inl (.inr hb)), fun b hb => ha b (.inr hb)⟩,
      ⟨rfl, fun b hb => hc b (.inr hb), by simp [viewDns]⟩⟩
  · rintro ⟨h1, h2, h3, h4⟩
    refine ⟨?_, ?_, ?_⟩
    · simp only [view020, h1, h2.load, h3.load, h4.load]
    · simp only [view020, List.mem_append]
      rintro b ((hb | hb) | hb)
      · exact h2.cells b hb
      · exact h3.cells b hb
      · exact h4.cells b hb
    · simp only [view020, List.mem_append]
      rintro b (hb | hb)
      · exact h2.arrays b hb
      · exact h3.arrays b hb

theorem Stands.of_v020 {k : Nat} {h : Heap} {a : Addr} {y : Result} (hh : Stands view k A h (.v020 a) y) :
    ∃ z, y = .v020 z ∧ Stands (View.ptr Heap.r020 view020) k A h a z := ⟨_, hh.load.symm, rfl, hh.cells, hh.arrays⟩

theorem Stands.v020 {k : Nat} {h : Heap} {a : Addr} {z : R020} (hh : Stands (View.ptr Heap.r020 view020) k A h a z) :
    Stands view k A h (.v020 a) (.v020 z) := ⟨congrArg Result.v020 hh.load, hh.cells, hh.arrays⟩

theorem Stands.of_v040 {k : Nat} {h : Heap} {a : Addr} {y : Result} (hh : Stands view k A h (.v040 a) y) :
    ∃ z, y = .v040 z ∧ Stands (View.ptr Heap.r040 view040) k A h a z := ⟨_, hh.load.symm, rfl, hh.cells, hh.arrays⟩

theorem Stands.v040 {k : Nat} {h : Heap} {a : Addr} {z : R040} (hh : Stands (View.ptr Heap.r040 view040) k A h a z) :
    Stands view k A h (.v040 a) (.v040 z) := ⟨congrArg Result.v040 hh.load, hh.cells, hh.arrays⟩

theorem Stands.of_v100 {k : Nat} {h : Heap} {a : Addr} {y : Result} (hh : Stands view k A h (.v100 a) y) :
    ∃ z, y = .v100 z ∧ Stands (View.ptr Heap.r100 view100) k A h a z := ⟨_, hh.load.symm, rfl, hh.cells, hh.arrays⟩

theorem Stands.v100 {k : Nat} {h : Heap} {a : Addr} {z : R100} (hh : Stands (View.ptr Heap.r100 view100) k A h a z) :
    Stands view k A h (.v100 a) (.v100 z) := ⟨congrArg Result.v100 hh.load, hh.cells, hh.arrays⟩

include hA in
theorem convert010_gives {h : Heap} {x : HResult} {y : Result} {only to : Bytes} (hl : lo ≤ h.next) (hx : Stands view 0 A h x y) :
    Gives (hConvert010 only x to) h (if to ≠ only then .panic else match (generalizing := false) y with
      | .v020 r => .ok (.v020 { cniVersion := only, ip4 := r.ip4.map Ip020.copy, ip6 := r.ip6.map Ip020.copy, dns := r.dns })
      | _ => .panic) (Stands view lo A) := by
  simp only [hConvert010]
  split
  · trivial
  cases x with
  | v040 a => obtain ⟨z, rfl, -⟩ := hx.of_v040; trivial
  | v100 a => obtain ⟨z, rfl, -⟩ := hx.of_v100; trivial
  | v020 a =>
    obtain ⟨z, rfl, hz⟩ := hx.of_v020
    simp only
    refine Gives.step (Gives.look _ _) ?_
    rintro h' r - ⟨rfl, hr⟩
    have hd := hz.deref
    rw [← hr] at hd
    obtain ⟨-, h4, h6, hd⟩ := holds_020.1 hd
    refine Gives.step (copyIp020_gives hA hl h4) ?_
    intro h1 i4 e1 hi4
    have hl1 := Nat.le_trans hl e1.next
    refine Gives.step (copyIp020_gives hA hl1 (h6.ext' hA (stable_opt stable_ip020ptr) e1 hl)) ?_
    intro h2 i6 e2 hi6
    have hl2 := Nat.le_trans hl1 e2.next
    refine Gives.step (dnsCopy_gives hA hl2 ((hd.ext' hA stable_dns e1 hl).ext' hA stable_dns e2 hl1)) ?_
    intro h3 d e3 hd3
    have hl3 := Nat.le_trans hl2 e3.next
    have sp := stable_opt stable_ip020ptr
    refine Gives.step (alloc_ptr hA (read := Heap.r020) stable_020 read_r020 hl3
      (y := { cniVersion := only, ip4 := z.ip4.map Ip020.copy, ip6 := z.ip6.map Ip020.copy, dns := z.dns })
      (holds_020.2 ⟨rfl, (hi4.ext' hA sp e2 hl1).ext' hA sp e3 hl2, hi6.ext' hA sp e3 hl2, hd3⟩)) ?_
    intro h4 q e4 hq
    exact Gives.pure hq.v020

include hA in
theorem convert040From02x_gives {h : Heap} {x : HResult} {y : Result} {to : Bytes} (hl : lo ≤ h.next) (hx : Stands view 0 A h x y) :
    Gives (hConvert040From02x x to) h (convert040From02x y to) (Stands view lo A) := by
  cases x with
  | v040 a => obtain ⟨z, rfl, -⟩ := hx.of_v040; trivial
  | v100 a => obtain ⟨z, rfl, -⟩ := hx.of_v100; trivial
  | v020 a =>
    obtain ⟨z, rfl, hz⟩ := hx.of_v020
    simp only [hConvert040From02x, convert040From02x]
    refine Gives.step (Gives.look _ _) ?_
    rintro h' r - ⟨rfl, hr⟩
    have hd := hz.deref
    rw [← hr] at hd
    obtain ⟨-, h4, h6, hd⟩ := holds_020.1 hd
    have sp := stable_opt stable_ip020ptr
    have s4 := stable_list (stable_opt stable_ip040ptr)
    have sr := stable_list (stable_opt stable_routePtr)
    refine Gives.step (dnsCopy_gives hA hl hd) ?_
    intro h1 d e1 hd1
    have hl1 := Nat.le_trans hl e1.next
    have h61 := h6.ext' hA sp e1 hl
    refine Gives.step (from020_gives hA hl1 (h4.ext' hA sp e1 hl)) ?_
    intro h2 x4 e2 hx4
    have hl2 := Nat.le_trans hl1 e2.next
    refine Gives.step (from020_gives hA hl2 (h61.ext' hA sp e2 hl1)) ?_
    intro h3 x6 e3 hx6
    have hl3 := Nat.le_trans hl2 e3.next
    have hd3 := (hd1.ext' hA stable_dns e2 hl1).ext' hA stable_dns e3 hl2
    have hips := (hx4.1.ext' hA s4 e3 hl2).append hx6.1
    have hrs := (hx4.2.ext' hA sr e3 hl2).append hx6.2
    refine Gives.step (alloc_ptr hA (read := Heap.ptrs) (v := (leaf Heap.intf040).opt.list) (y := []) (stable_list (stable_opt (stable_leaf one_intf040)))
      read_ptrs hl3 ⟨rfl, by simp [View.list], by simp [View.list]⟩) ?_
    intro h4 a1 e4 ha1
    have hl4 := Nat.le_trans hl3 e4.next
    refine Gives.step (alloc_ptr hA (read := Heap.ptrs) s4 read_ptrs hl4 (hips.ext' hA s4 e4 hl3)) ?_
    intro h5 a2 e5 ha2
    have hl5 := Nat.le_trans hl4 e5.next
    refine Gives.step (alloc_ptr hA (read := Heap.ptrs) sr read_ptrs hl5 ((hrs.ext' hA sr e4 hl3).ext' hA sr e5 hl4)) ?_
    intro h6 a3 e6 ha3
    have hl6 := Nat.le_trans hl5 e6.next
    have hd6 := ((hd3.ext' hA stable_dns e4 hl3).ext' hA stable_dns e5 hl4).ext' hA stable_dns e6 hl5
    have s1 := stable_slice (stable_leaf one_intf040)
    refine Gives.step (alloc_ptr hA (read := Heap.r040) (v := view040) (x := ⟨to, a1, a2, a3, d⟩) (y := ⟨to, [], _, _, z.dns⟩) stable_040 read_r040 hl6
      (holds_040.2 ⟨rfl, (Stands.ext' hA s1 ha1 e5 hl4).ext' hA s1 e6 hl5, Stands.ext' hA (stable_slice stable_ip040ptr) ha2 e6 hl5, ha3, hd6⟩)) ?_
    intro h7 q e7 hq
    exact Gives.pure hq.v040

include hA in
theorem convertInternal_gives {h : Heap} {x : HResult} {y : Result} {to : Bytes} (hl : lo ≤ h.next) (hx : Stands view 0 A h x y) :
    Gives (hConvertInternal x to) h (convertInternal y to) (Stands view lo A) := by
  cases x with
  | v020 a => obtain ⟨z, rfl, -⟩ := hx.of_v020; trivial
  | v100 a => obtain ⟨z, rfl, -⟩ := hx.of_v100; trivial
  | v040 a =>
    obtain ⟨z, rfl, hz⟩ := hx.of_v040
    simp only [hConvertInternal, convertInternal]
    refine Gives.step (Gives.look _ _) ?_
    rintro h' r - ⟨rfl, hr⟩
    have hd := hz.deref
    rw [← hr] at hd
    obtain ⟨-, hi, hp, hrs, hd⟩ := holds_040.1 hd
    rw [map_routecopy]
    refine Gives.step (lists_gives hA (stable_leaf one_intf040) (stable_leaf one_intf040) stable_ip040ptr stable_ip040ptr
      (ifV := fun l => .ok (l.map fun x => x.map id)) (ipV := fun l => .ok (l.map fun x => x.map id))
      (fun h l m hl hm => eachCopy_gives hA (stable_leaf one_intf040) (stable_leaf one_intf040) (fun h a b hl hab => intfCopy_gives hl hab) hl hm)
      (fun h l m hl hm => eachCopy_gives hA stable_ip040ptr stable_ip040ptr (fun h a b hl hab => copyIp040_gives hA hl hab) hl hm)
      hl hi hp hrs hd) ?_
    rintro h1 x e1 ⟨hv, hq⟩
    simp only [Option.map_id_fun, id_eq, List.map_id_fun', List.map_id'] at hq
    refine Gives.step (alloc_ptr hA (read := Heap.r040) stable_040 read_r040 (Nat.le_trans hl e1.next)
      (y := { z with cniVersion := to }) (holds_040.2 ⟨hv, hq⟩)) ?_
    intro h2 q e2 hq
    exact Gives.pure hq.v040

include hA in
theorem convertFrom04x_gives {h : Heap} {x : HResult} {y : Result} {to : Bytes} (hl : lo ≤ h.next) (hx : Stands view 0 A h x y) :
    Gives (hConvertFrom04x x to) h (convertFrom04x y to) (Stands view lo A) := by
  cases x with
  | v020 a => obtain ⟨z, rfl, -⟩ := hx.of_v020; trivial
  | v100 a => obtain ⟨z, rfl, -⟩ := hx.of_v100; trivial
  | v040 a =>
    obtain ⟨z, rfl, hz⟩ := hx.of_v040
    have hval : convertFrom04x (.v040 z) to = ((mapDeref convertInterfaceFrom040 z.interfaces >>= fun is' => mapDeref convertIPConfigFrom040 z.ips >>= fun ps' => .ok (is', ps')) >>=
        fun p => .ok (.v100 { cniVersion := to, interfaces := p.1, ips := p.2, routes := z.routes, dns := z.dns })) := by
      simp only [convertFrom04x, map_routecopy]
      cases mapDeref convertInterfaceFrom040 z.interfaces with
      | ok l => cases mapDeref convertIPConfigFrom040 z.ips <;> rfl
      | err e => rfl
      | panic => rfl
    rw [hval]
    simp only [hConvertFrom04x]
    refine Gives.step (Gives.look _ _) ?_
    rintro h' r - ⟨rfl, hr⟩
    have hd := hz.deref
    rw [← hr] at hd
    obtain ⟨-, hi, hp, hrs, hd⟩ := holds_040.1 hd
    refine Gives.bind (lists_gives hA (stable_leaf one_intf040) (stable_leaf one_intf100) stable_ip040ptr stable_ip100ptr
      (fun h l m hl hm => eachDeref_gives hA (stable_leaf one_intf040) (stable_leaf one_intf100) (fun h a b hl hab => intfFrom040_gives hl hab) hl hm)
      (fun h l m hl hm => eachDeref_gives hA stable_ip040ptr stable_ip100ptr (fun h a b hl hab => ipFrom040_gives hA hl hab) hl hm)
      hl hi hp hrs hd) ?_
    rintro h1 x p e1 ⟨hv, hq⟩
    refine Gives.step (alloc_ptr hA (read := Heap.r100) stable_100 read_r100 (Nat.le_trans hl e1.next)
      (y := { cniVersion := to, interfaces := p.1, ips := p.2, routes := z.routes, dns := z.dns }) (holds_100.2 ⟨hv, hq⟩)) ?_
    intro h2 q e2 hq
    exact Gives.pure hq.v100

include hA in
theorem convertTo04x_gives {h : Heap} {x : HResult} {y : Result} {to : Bytes} (hl : lo ≤ h.next) (hx : Stands view 0 A h x y) :
    Gives (hConvertTo04x x to) h (convertTo04x y to) (Stands view lo A) := by
  cases x with
  | v020 a => obtain ⟨z, rfl, -⟩ := hx.of_v020; trivial
  | v040 a => obtain ⟨z, rfl, -⟩ := hx.of_v040; trivial
  | v100 a =>
    obtain ⟨z, rfl, hz⟩ := hx.of_v100
    have hval : convertTo04x (.v100 z) to = ((mapDeref convertInterfaceTo040 z.interfaces >>= fun is' => mapDeref convertIPConfigTo040 z.ips >>= fun ps' => .ok (is', ps')) >>=
        fun p => .ok (.v040 { cniVersion := to, interfaces := p.1, ips := p.2, routes := z.routes, dns := z.dns })) := by
      simp only [convertTo04x, map_routecopy]
      cases mapDeref convertInterfaceTo040 z.interfaces with
      | ok l => cases mapDeref convertIPConfigTo040 z.ips <;> rfl
      | err e => rfl
      | panic => rfl
    rw [hval]
    simp only [hConvertTo04x]
    refine Gives.step (Gives.look _ _) ?_
    rintro h' r - ⟨rfl, hr⟩
    have hd := hz.deref
    rw [← hr] at hd
    obtain ⟨-, hi, hp, hrs, hd⟩ := holds_100.1 hd
    refine Gives.bind (lists_gives hA (stable_leaf one_intf100) (stable_leaf one_intf040) stable_ip100ptr stable_ip040ptr
      (fun h l m hl hm => eachDeref_gives hA (stable_leaf one_intf100) (stable_leaf one_intf040) (fun h a b hl hab => intfTo040_gives hl hab) hl hm)
      (fun h l m hl hm => eachDeref_gives hA stable_ip100ptr stable_ip040ptr (fun h a b hl hab => ipTo040_gives hA hl hab) hl hm)
      hl hi hp hrs hd) ?_
    rintro h1 x p e1 ⟨hv, hq⟩
    refine Gives.step (alloc_ptr hA (read := Heap.r040) stable_040 read_r040 (Nat.le_trans hl e1.next)
      (y := { cniVersion := to, interfaces := p.1, ips := p.2, routes := z.routes, dns := z.dns }) (holds_040.2 ⟨hv, hq⟩)) ?_
    intro h2 q e2 hq
    exact Gives.pure hq.v040

include hA in
theorem convert040To02x_gives {h : Heap} {x : HResult} {y : Result} {to : Bytes} (hl : lo ≤ h.next) (hx : Stands view 0 A h x y) :
    Gives (hConvert040To02x x to) h (convert040To02x y to) (Stands view lo A) := by
  cases x with
  | v020 a => obtain ⟨z, rfl, -⟩ := hx.of_v020; trivial
  | v100 a => obtain ⟨z, rfl, -⟩ := hx.of_v100; trivial
  | v040 a =>
    obtain ⟨z, rfl, hz⟩ := hx.of_v040
    have hval : convert040To02x (.v040 z) to = (pickIPs z.ips none none >>= fun p => pickRoutes z.routes p.1 p.2 >>= fun p =>
        if p.1 = .none ∧ p.2 = .none then .err (.text b!"cannot convert: no valid IP addresses")
        else .ok (.v020 { cniVersion := to, ip4 := p.1, ip6 := p.2, dns := z.dns })) := by
      simp only [convert040To02x]
      cases pickIPs z.ips none none with
      | ok p => simp only [Out.bind_ok]; cases pickRoutes z.routes p.1 p.2 <;> rfl
      | err e => rfl
      | panic => rfl
    rw [hval]
    simp only [hConvert040To02x]
    refine Gives.step (Gives.look _ _) ?_
    rintro h' r - ⟨rfl, hr⟩
    have hd := hz.deref
    rw [← hr] at hd
    obtain ⟨-, -, hp, hrs, hd⟩ := holds_040.1 hd
    refine Gives.step (dnsCopy_gives hA hl hd) ?_
    intro h1 d e1 hd1
    have hl1 := Nat.le_trans hl e1.next
    have hp1 := hp.ext' hA (stable_slice stable_ip040ptr) e1 hl
    have hrs1 := hrs.ext' hA (stable_slice stable_routePtr) e1 hl
    refine Gives.step (Gives.look _ _) ?_
    rintro _ _ - ⟨rfl, rfl⟩
    refine Gives.bind (pickIPs_gives (lo := lo) (p := (none, none)) (q := (none, none)) hp1.deref ⟨Stands.none, Stands.none⟩) ?_
    rintro _ p q - ⟨rfl, hpq⟩
    refine Gives.step (Gives.look _ _) ?_
    rintro _ _ - ⟨rfl, rfl⟩
    refine Gives.bind (pickRoutes_gives hrs1.deref hpq.1 hpq.2) ?_
    rintro h2 p q - ⟨rfl, h4, h6⟩
    rw [h4.isNone, h6.isNone]
    simp only [Option.isNone_iff_eq_none]
    split
    · rfl
    refine Gives.step (picked_gives hA hl1 h4) ?_
    intro h3 i4 e3 hi4
    have hl3 := Nat.le_trans hl1 e3.next
    refine Gives.step (picked_gives hA hl3 (h6.ext' hA (stable_opt stable_pick) e3 hl1)) ?_
    intro h5 i6 e5 hi6
    have hl5 := Nat.le_trans hl3 e5.next
    refine Gives.step (alloc_ptr hA (read := Heap.r020) stable_020 read_r020 hl5
      (y := { cniVersion := to, ip4 := q.1, ip6 := q.2, dns := z.dns })
      (holds_020.2 ⟨rfl, hi4.ext' hA (stable_opt stable_ip020ptr) e5 hl3, hi6, (hd1.ext' hA stable_dns e3 hl1).ext' hA stable_dns e5 hl3⟩)) ?_
    intro h6 q e6 hq
    exact Gives.pure hq.v020

end

/-- Two results of the newest type share everything but the top struct. Proof device: models no code. -/
def SameParts (h : Heap) (x : HResult) (h' : Heap) (x' : HResult) : Prop :=
  ∃ a b r, x = .v100 a ∧ x' = .v100 b ∧ h.next ≤ b ∧ h'.r100 b = { h.r100 a with cniVersion := r }

theorem convertFrom100_gives {A : List Addr} {h : Heap} {x : HResult} {y : Result} {to : Bytes} (hA : ∀ a ∈ A, a < h.next) (hx : Stands view 0 A h x y) :
    Gives (hConvertFrom100 x to) h (convertFrom100 y to) (fun h' x' y' => Stands view 0 A h' x' y' ∧ SameParts h x h' x') := by
  cases x with
  | v020 a => obtain ⟨z, rfl, -⟩ := hx.of_v020; trivial
  | v040 a => obtain ⟨z, rfl, -⟩ := hx.of_v040; trivial
  | v100 a =>
    obtain ⟨z, rfl, hz⟩ := hx.of_v100
    simp only [hConvertFrom100, convertFrom100]
    refine Gives.step (Gives.look _ _) ?_
    rintro h' r - ⟨rfl, hr⟩
    have hd := hz.deref
    rw [← hr] at hd
    obtain ⟨-, hq⟩ := holds_100.1 hd
    refine Gives.step (Gives.alloc _ _) ?_
    rintro h1 q e1 ⟨rfl, hn, hc⟩
    have hd1 : Stands view100 0 A h1 { r with cniVersion := to } { z with cniVersion := to } := by
      have := hd.ext stable_100 e1 hA
      exact holds_100.2 ⟨rfl, (holds_100.1 this).2⟩
    have hread := read_r100 _ _ hc
    refine Gives.pure ⟨Stands.v100 ⟨?_, ?_, ?_⟩, _, _, to, rfl, rfl, Nat.le_refl _, ?_⟩
    · simp only [View.ptr, hread]; exact hd1.load
    · simp only [View.ptr, hread, List.mem_cons]
      rintro b (rfl | hb)
      · exact ⟨Nat.zero_le _, by omega⟩
      · exact hd1.cells b hb
    · simp only [View.ptr, hread]; exact hd1.arrays
    · rw [hread, hr]

theorem holds_version {A : List Addr} {k : Nat} {h : Heap} {x : HResult} {y : Result} (hx : Stands view k A h x y) : x.version h = y.version := by
  rw [← hx.load]
  cases x <;> rfl

/-! ### `Convert` -/

theorem step_gives {A : List Addr} {h : Heap} {x : HResult} {y : Result} {w : Bytes} {c : Conv} {again : HResult → Bytes → HM HResult}
    {again' : Result → Bytes → Out Result} {Q : Heap → HResult → Result → Prop} (hx : Stands view 0 A h x y) (hw : w ≠ []) (hne : y.version ≠ w)
    (hf : findConverter y.version w = some c) (hc : Gives (hApplyConv again c x w) h (applyConv again' c y w) Q) :
    Gives (hConvertStep again x w) h (convertStep again' y w) Q := by
  simp only [hConvertStep, convertStep, if_neg hw]
  refine Gives.step (Gives.look _ _) ?_
  rintro h' v - ⟨rfl, hv⟩
  rw [holds_version hx] at hv
  subst hv
  simp only [if_neg hne, hf]
  exact hc

theorem find_up : findConverter b!"0.1.0" b!"0.4.0" = some .c040From02x ∧ findConverter b!"0.2.0" b!"0.4.0" = some .c040From02x := by decide
theorem find_down : findConverter b!"0.4.0" b!"0.1.0" = some .c040To02x ∧ findConverter b!"0.4.0" b!"0.2.0" = some .c040To02x := by decide

theorem apply_gives {lo : Nat} {A : List Addr} (hA : ∀ a ∈ A, a < lo) {h : Heap} {x : HResult} {y : Result} {w : Bytes} {c : Conv}
    (hl : lo ≤ h.next) (hx : Stands view 0 A h x y) (hf : findConverter y.version w = some c) (hc : c ≠ .c100From100) :
    Gives (hApplyConv (hConvertN 1) c x w) h (applyConv (convertN 1) c y w) (Stands view lo A) := by
  cases c with
  | c020From010 => exact convert010_gives hA hl hx
  | c020To010 => exact convert010_gives hA hl hx
  | c040From02x => exact convert040From02x_gives hA hl hx
  | c040Internal => exact convertInternal_gives hA hl hx
  | c040To02x => exact convert040To02x_gives hA hl hx
  | c100From04x => exact convertFrom04x_gives hA hl hx
  | c100To04x => exact convertTo04x_gives hA hl hx
  | c100From100 => exact absurd rfl hc
  | c100From02x =>
    obtain ⟨row, hrow, h1, h2, h3⟩ := findConverter_mem hf
    have hv := from02x_rows row hrow h3
    rw [h1] at hv
    have hin : Gives (hConvertN 1 x b!"0.4.0") h (convertN 1 y b!"0.4.0") (Stands view lo A) := by
      refine step_gives hx (by decide) ?_ (c := .c040From02x) ?_ (convert040From02x_gives hA hl hx)
      · rcases hv with e | e <;> rw [e] <;> decide
      · rcases hv with e | e <;> rw [e]
        · exact find_up.1
        · exact find_up.2
    have hval : applyConv (convertN 1) .c100From02x y w = (convertN 1 y b!"0.4.0" >>= fun r => convertFrom04x r w) := by
      simp only [applyConv]; cases convertN 1 y b!"0.4.0" <;> rfl
    rw [hval]
    refine Gives.bind hin ?_
    intro h1 x1 y1 e1 hx1
    exact convertFrom04x_gives hA (Nat.le_trans hl e1.next) ⟨hx1.load, fun b hb => ⟨Nat.zero_le _, (hx1.cells b hb).2⟩, hx1.arrays⟩
  | c100To02x =>
    obtain ⟨row, hrow, h1, h2, h3⟩ := findConverter_mem hf
    have hv := to02x_rows row hrow h3 w h2
    have hval : applyConv (convertN 1) .c100To02x y w = (convertTo04x y b!"0.4.0" >>= fun r => convertN 1 r w) := by
      simp only [applyConv]; cases convertTo04x y b!"0.4.0" <;> rfl
    rw [hval]
    have hin := convertTo04x_gives (to := b!"0.4.0") hA hl hx
    unfold Gives at hin ⊢
    have e : (hApplyConv (hConvertN 1) .c100To02x x w) h = (hConvertTo04x x b!"0.4.0" h >>= fun p => hConvertN 1 p.1 w p.2) := rfl
    rw [e]
    cases hm : hConvertTo04x x b!"0.4.0" h with
    | ok p =>
      rw [hm] at hin
      cases ho : convertTo04x y b!"0.4.0" with
      | ok y1 =>
        rw [ho] at hin
        simp only at hin
        have hx1 : Stands view 0 A p.2 p.1 y1 := ⟨hin.2.load, fun b hb => ⟨Nat.zero_le _, (hin.2.cells b hb).2⟩, hin.2.arrays⟩
        have hv1 : y1.version = b!"0.4.0" := (convertTo04x_version ho).1
        have hout : Gives (hConvertN 1 p.1 w) p.2 (convertN 1 y1 w) (Stands view lo A) := by
          refine step_gives hx1 ?_ ?_ (c := .c040To02x) ?_ (convert040To02x_gives hA (Nat.le_trans hl hin.1.next) hx1)
          · rcases hv with e | e <;> rw [e] <;> decide
          · rw [hv1]; rcases hv with e | e <;> rw [e] <;> decide
          · rw [hv1]; rcases hv with e | e <;> rw [e]
            · exact find_down.1
            · exact find_down.2
        unfold Gives at hout
        simp only [Out.bind_ok]
        split at hout
        · exact ⟨hin.1.trans hout.1, hout.2⟩
        · exact hout
        · trivial
        · exact hout.elim
      | err e => rw [ho] at hin; exact hin.elim
      | panic => rw [ho] at hin; exact hin.elim
    | err e =>
      rw [hm] at hin
      cases ho : convertTo04x y b!"0.4.0" with
      | err e' => rw [ho] at hin; exact hin
      | ok b => rw [ho] at hin; exact hin.elim
      | panic => rw [ho] at hin; exact hin.elim
    | panic =>
      rw [hm] at hin
      cases ho : convertTo04x y b!"0.4.0" with
      | panic => trivial
      | ok b => rw [ho] at hin; exact hin.elim
      | err b => rw [ho] at hin; exact hin.elim

theorem from100_rows : ∀ row ∈ converters, (∃ w ∈ row.2.1, row.1 ∈ supported100 ∧ w ∈ supported100) ↔ row.2.2 = Conv.c100From100 := by decide

theorem from100_rows' : ∀ row ∈ converters, row.2.2 = Conv.c100From100 → row.1 ∈ supported100 ∧ ∀ w ∈ row.2.1, w ∈ supported100 := by decide

/-- What `Convert` returns in terms of the heap. Proof device: models no code. -/
def Converted (A : List Addr) (h : Heap) (x : HResult) (v w : Bytes) (h' : Heap) (x' : HResult) (y' : Result) : Prop :=
  Stands view 0 A h' x' y' ∧ (if v = w then x' = x ∧ h' = h else if v ∈ supported100 ∧ w ∈ supported100 then SameParts h x h' x'
    else Stands view h.next A h' x' y')

theorem convert_gives {A : List Addr} {h : Heap} {x : HResult} {y : Result} {w : Bytes} (hA : ∀ a ∈ A, a < h.next) (hx : Stands view 0 A h x y)
    (hw : w ≠ []) : Gives (hConvert x w) h (convert y w) (Converted A h x y.version w) := by
  by_cases hne : y.version = w
  · subst hne
    have e1 : hConvert x y.version h = .ok (x, h) := by
      show hConvertStep _ x y.version h = _
      have : (hConvertStep (hConvertN 1) x y.version h) = ((if x.version h = (if y.version = [] then b!"0.1.0" else y.version) then pure x
        else match findConverter (x.version h) (if y.version = [] then b!"0.1.0" else y.version) with
          | none => fun _ => .err (.text (b!"no converter for CNI result version " ++ x.version h ++ b!" to " ++ (if y.version = [] then b!"0.1.0" else y.version)))
          | some c => hApplyConv (hConvertN 1) c x (if y.version = [] then b!"0.1.0" else y.version) : HM HResult) h) := rfl
      rw [this, holds_version hx, if_neg hw, if_pos rfl]
      rfl
    rw [convert_same y hw]
    unfold Gives
    rw [e1]
    exact ⟨Ext.refl h, hx, by rw [if_pos rfl]; exact ⟨rfl, rfl⟩⟩
  · cases hf : findConverter y.version w with
    | none =>
      show Gives (hConvertStep _ x w) h (convertStep _ y w) _
      simp only [hConvertStep, convertStep, if_neg hw]
      refine Gives.step (Gives.look _ _) ?_
      rintro h' v - ⟨rfl, hv⟩
      rw [holds_version hx] at hv
      subst hv
      simp only [if_neg hne, hf]
      rfl
    | some c =>
      obtain ⟨row, hrow, r1, r2, r3⟩ := findConverter_mem hf
      refine step_gives hx hw hne hf ?_
      by_cases hc : c = .c100From100
      · subst hc
        obtain ⟨s1, s2⟩ := from100_rows' row hrow r3
        rw [r1] at s1
        refine Gives.mono (convertFrom100_gives hA hx) ?_
        intro h' x' y' _ hq
        refine ⟨hq.1, ?_⟩
        rw [if_neg hne, if_pos ⟨s1, s2 w r2⟩]
        exact hq.2
      · refine Gives.mono (apply_gives hA (Nat.le_refl _) hx hf hc) ?_
        intro h' x' y' _ hq
        refine ⟨⟨hq.load, fun b hb => ⟨Nat.zero_le _, (hq.cells b hb).2⟩, hq.arrays⟩, ?_⟩
        rw [if_neg hne, if_neg ?_]
        · exact hq
        · rintro ⟨s1, s2⟩
          refine hc (r3.symm.trans ((from100_rows row hrow).1 ⟨w, r2, ?_, s2⟩))
          rw [r1]; exact s1

/-! ### C56 -/

theorem inHeap_holds {h : Heap} {r : HResult} (hr : InHeap h r) : Stands view 0 (view.arrays h r) h r (view.load h r) :=
  ⟨rfl, fun a ha => ⟨Nat.zero_le _, hr.cells a ha⟩, fun _ ha => ha⟩

theorem hConvert_target (r : HResult) (w : Bytes) : hConvert r w = hConvert r (target w) := by
  unfold target
  split
  · next e => subst e; rfl
  · rfl

theorem convert_target (r : Result) (w : Bytes) : convert r w = convert r (target w) := by
  unfold target
  split
  · next e => subst e; exact convert_empty r
  · rfl

theorem target_ne (w : Bytes) : target w ≠ [] := by
  unfold target
  split
  · decide
  · assumption

theorem is1x_iff (v : Bytes) : v ∈ supported100 ↔ Is1x v := by simp [supported100, Is1x]

theorem hConvert_gives {h : Heap} {r : HResult} {w : Bytes} (hr : InHeap h r) :
    Gives (hConvert r w) h (convert (view.load h r) w) (Converted (view.arrays h r) h r (view.load h r).version (target w)) := by
  rw [hConvert_target, convert_target]
  exact convert_gives hr.arrays (inHeap_holds hr) (target_ne w)

theorem hConvert_ok {h h' : Heap} {r r' : HResult} {w : Bytes} (hr : InHeap h r) (he : hConvert r w h = .ok (r', h')) :
    ∃ y, convert (view.load h r) w = .ok y ∧ Ext h h' ∧ Converted (view.arrays h r) h r (view.load h r).version (target w) h' r' y := by
  have hg := hConvert_gives (w := w) hr
  unfold Gives at hg
  rw [he] at hg
  cases ho : convert (view.load h r) w with
  | ok y => rw [ho] at hg; exact ⟨y, rfl, hg⟩
  | err e => rw [ho] at hg; exact hg.elim
  | panic => rw [ho] at hg; exact hg.elim

/-- Converting a result in memory gives the value C27–C31 are about. -/
theorem c56_value {h h' : Heap} {r r' : HResult} {w : Bytes} (hr : InHeap h r) (he : hConvert r w h = .ok (r', h')) :
    convert (view.load h r) w = .ok (view.load h' r') := by
  obtain ⟨y, h1, -, h2⟩ := hConvert_ok hr he
  rw [h1, h2.1.load]

/-- It fails, or panics, just when the conversion of the value does. -/
theorem c56_fails {h : Heap} {r : HResult} {w : Bytes} (hr : InHeap h r) :
    (∀ e, hConvert r w h = .err e ↔ convert (view.load h r) w = .err e) ∧ (hConvert r w h = .panic ↔ convert (view.load h r) w = .panic) := by
  have hg := hConvert_gives (w := w) hr
  unfold Gives at hg
  cases hm : hConvert r w h with
  | ok p =>
    rw [hm] at hg
    cases ho : convert (view.load h r) w with
    | ok y => simp
    | err e => rw [ho] at hg; exact hg.elim
    | panic => rw [ho] at hg; exact hg.elim
  | err e =>
    rw [hm] at hg
    cases ho : convert (view.load h r) w with
    | ok y => rw [ho] at hg; exact hg.elim
    | err e' =>
      rw [ho] at hg
      have hg : e = e' := hg
      subst hg
      simp
    | panic => rw [ho] at hg; exact hg.elim
  | panic =>
    rw [hm] at hg
    cases ho : convert (view.load h r) w with
    | ok y => rw [ho] at hg; exact hg.elim
    | err e' => rw [ho] at hg; exact hg.elim
    | panic => simp

/-- Nothing that was in memory is changed by a conversion, in particular not the original. -/
theorem c56_keeps {h h' : Heap} {r r' : HResult} {w : Bytes} (hr : InHeap h r) (he : hConvert r w h = .ok (r', h')) :
    (∀ a, a < h.next → h'.cell a = h.cell a) ∧ view.load h' r = view.load h r := by
  obtain ⟨y, -, h1, -⟩ := hConvert_ok hr he
  exact ⟨h1.cell, ((inHeap_holds hr).ext stable_view h1 hr.arrays).load⟩

/-- The converted result is itself in order, and has no address bytes of its own: where it has an address, it shares the bytes of the original. -/
theorem c56_address_bytes {h h' : Heap} {r r' : HResult} {w : Bytes} (hr : InHeap h r) (he : hConvert r w h = .ok (r', h')) :
    InHeap h' r' ∧ ∀ a ∈ view.arrays h' r', a ∈ view.arrays h r := by
  obtain ⟨y, -, h1, h2, h3⟩ := hConvert_ok hr he
  refine ⟨⟨fun a ha => (h2.cells a ha).2, fun a ha => Nat.lt_of_lt_of_le (hr.arrays a (h2.arrays a ha)) h1.next, ?_⟩, h2.arrays⟩
  intro a ha
  have ha' := h2.arrays a ha
  split at h3
  · rw [h3.1, h3.2]; exact hr.apart a ha'
  · split at h3
    · obtain ⟨b, c, v, rfl, rfl, hb, hc⟩ := h3
      have hrest : view100.cells h' (h'.r100 c) = view100.cells h (h.r100 b) := by
        have h5 := stable_100 h h' (h.r100 b) (fun a ha => h1.cell a (hr.cells a (List.mem_cons_of_mem _ ha)))
          (fun a ha => one_bytes h h' a (h1.cell a (hr.arrays a ha)))
        rw [hc, ← h5.2.1]
        rfl
      show a ∉ (c :: view100.cells h' (h'.r100 c))
      rw [hrest, List.mem_cons]
      rintro (rfl | hm)
      · exact absurd (hr.arrays _ ha') (Nat.not_lt.2 hb)
      · exact hr.apart a ha' (List.mem_cons_of_mem _ hm)
    · intro hm
      exact absurd (hr.arrays a ha') (Nat.not_lt.2 (h3.cells a hm).1)

/-- A conversion to the version the result has returns the result itself, not a copy. -/
theorem c56_same {h : Heap} {r : HResult} {w : Bytes} (hr : InHeap h r) (hv : (view.load h r).version = target w) :
    hConvert r w h = .ok (r, h) := by
  have hg := hConvert_gives (w := w) hr
  unfold Gives at hg
  have hne : (view.load h r).version ≠ [] := by rw [hv]; exact target_ne w
  have ho : convert (view.load h r) w = .ok (view.load h r) := by rw [convert_target, ← hv]; exact convert_same _ hne
  rw [ho] at hg
  cases hm : hConvert r w h with
  | ok p =>
    rw [hm] at hg
    have := hg.2.2
    rw [if_pos hv] at this
    obtain ⟨e1, e2⟩ := this
    exact congrArg Out.ok (Prod.ext e1 e2)
  | err e => rw [hm] at hg; exact hg.elim
  | panic => rw [hm] at hg; exact hg.elim

/-- A result converted to another version, unless from 1.0.0 to 1.1.0 or back, consists of new structs, slices and integers only: what is done
to it afterwards (except overwriting bytes of addresses in place) does not change the original, and the other way round. -/
theorem c56_independent {h h' : Heap} {r r' : HResult} {w : Bytes} (hr : InHeap h r) (he : hConvert r w h = .ok (r', h'))
    (hv : (view.load h r).version ≠ target w) (h1x : ¬ (Is1x (view.load h r).version ∧ Is1x (target w))) :
    (∀ a ∈ view.cells h' r', h.next ≤ a) ∧ (∀ h2, WrittenThrough h' r' h' h2 → view.load h2 r = view.load h' r) ∧
      ∀ h2, WrittenThrough h' r h' h2 → view.load h2 r' = view.load h' r' := by
  obtain ⟨y, -, h1, h2, h3⟩ := hConvert_ok hr he
  rw [if_neg hv, if_neg (by rw [is1x_iff, is1x_iff]; exact h1x)] at h3
  have hfresh : ∀ a ∈ view.cells h' r', h.next ≤ a := fun a ha => (h3.cells a ha).1
  have hst := stable_view h h' r (fun a ha => h1.cell a (hr.cells a ha)) (fun a ha => one_bytes h h' a (h1.cell a (hr.arrays a ha)))
  refine ⟨hfresh, ?_, ?_⟩
  · intro h2 hwt
    have hold : ∀ a, a < h.next → h2.cell a = h'.cell a :=
      fun a ha => hwt a (Nat.lt_of_lt_of_le ha h1.next) (fun hc => absurd ha (Nat.not_lt.2 (hfresh a hc)))
    refine (stable_view h' h2 r ?_ ?_).1
    · intro a ha
      rw [hst.2.1] at ha
      exact hold a (hr.cells a ha)
    · intro a ha
      rw [hst.2.2] at ha
      exact one_bytes h' h2 a (hold a (hr.arrays a ha))
  · intro h2 hwt
    unfold WrittenThrough at hwt
    rw [hst.2.1] at hwt
    refine (stable_view h' h2 r' ?_ ?_).1
    · intro a ha
      refine hwt a (h3.cells a ha).2 ?_
      intro hc
      exact absurd (hr.cells a hc) (Nat.not_lt.2 (hfresh a ha))
    · intro a ha
      have ha' := h3.arrays a ha
      exact one_bytes h' h2 a (hwt a (Nat.lt_of_lt_of_le (hr.arrays a ha') h1.next) (hr.apart a ha'))

/-- From 1.0.0 to 1.1.0 and back only the top struct is new: as long as neither top struct is written, the two results are the same but for the
version, whatever is done to the interfaces, addresses, routes or DNS of either. -/
theorem c56_shared {h h' : Heap} {r r' : HResult} {w : Bytes} (hr : InHeap h r) (he : hConvert r w h = .ok (r', h'))
    (hv : (view.load h r).version ≠ target w) (h1x : Is1x (view.load h r).version ∧ Is1x (target w)) :
    top r' ≠ top r ∧ ∀ h2 : Heap, h2.cell (top r) = h'.cell (top r) → h2.cell (top r') = h'.cell (top r') →
      view.load h2 r' = withVersion (target w) (view.load h2 r) := by
  obtain ⟨y, hy, h1, h2, h3⟩ := hConvert_ok hr he
  rw [if_neg hv, if_pos (by rw [is1x_iff, is1x_iff]; exact h1x)] at h3
  obtain ⟨a, b, v, rfl, rfl, hb, hc⟩ := h3
  have hlt : a < h.next := hr.cells a (List.mem_cons_self ..)
  refine ⟨fun e => by simp only [top] at e; omega, ?_⟩
  intro h2' e1 e2
  simp only [top] at e1 e2
  have ra : h2'.r100 a = h.r100 a := (one_r100 _ _ a e1).trans (one_r100 _ _ a (h1.cell a hlt))
  have rb : h2'.r100 b = { h.r100 a with cniVersion := v } := (one_r100 _ _ b e2).trans hc
  have hver : v = target w := by
    have hy2 : convert (view.load h (.v100 a)) w = .ok (view.load h' (.v100 b)) := c56_value hr he
    have : (view.load h' (.v100 b)).version = v := by
      show (h'.r100 b).cniVersion = v
      rw [hc]
    rw [← this]
    exact (c27_reports_requested hy2).1
  subst hver
  simp only [view, View.ptr, ra, rb, withVersion]
  rfl


theorem setTop_020 {h : Heap} {a : Addr} {x y : H020} (hx : h.cell a = .r020 x) :
    view020.load { h with cell := fun b => if b = a then .r020 y else h.cell b } = view020.load h ∧
    view020.cells { h with cell := fun b => if b = a then .r020 y else h.cell b } = view020.cells h ∧
    view020.arrays { h with cell := fun b => if b = a then .r020 y else h.cell b } = view020.arrays h := by
  have e0 : Heap.bytes { h with cell := fun b => if b = a then .r020 y else h.cell b } = Heap.bytes h := by
    funext b
    simp only [Heap.bytes]
    by_cases e : b = a
    · subst e; simp only [if_true, hx]
    · simp only [if_neg e]
  have e1 : Heap.strs { h with cell := fun b => if b = a then .r020 y else h.cell b } = Heap.strs h := by
    funext b
    simp only [Heap.strs]
    by_cases e : b = a
    · subst e; simp only [if_true, hx]
    · simp only [if_neg e]
  have e2 : Heap.int { h with cell := fun b => if b = a then .r020 y else h.cell b } = Heap.int h := by
    funext b
    simp only [Heap.int]
    by_cases e : b = a
    · subst e; simp only [if_true, hx]
    · simp only [if_neg e]
  have e3 : Heap.routeArr { h with cell := fun b => if b = a then .r020 y else h.cell b } = Heap.routeArr h := by
    funext b
    simp only [Heap.routeArr]
    by_cases e : b = a
    · subst e; simp only [if_true, hx]
    · simp only [if_neg e]
  have e4 : Heap.ptrs { h with cell := fun b => if b = a then .r020 y else h.cell b } = Heap.ptrs h := by
    funext b
    simp only [Heap.ptrs]
    by_cases e : b = a
    · subst e; simp only [if_true, hx]
    · simp only [if_neg e]
  have e5 : Heap.route { h with cell := fun b => if b = a then .r020 y else h.cell b } = Heap.route h := by
    funext b
    simp only [Heap.route]
    by_cases e : b = a
    · subst e; simp only [if_true, hx]
    · simp only [if_neg e]
  have e6 : Heap.intf040 { h with cell := fun b => if b = a then .r020 y else h.cell b } = Heap.intf040 h := by
    funext b
    simp only [Heap.intf040]
    by_cases e : b = a
    · subst e; simp only [if_true, hx]
    · simp only [if_neg e]
  have e7 : Heap.intf100 { h with cell := fun b => if b = a then .r020 y else h.cell b } = Heap.intf100 h := by
    funext b
    simp only [Heap.intf100]
    by_cases e : b = a
    · subst e; simp only [if_true, hx]
    · simp only [if_neg e]
  have e8 : Heap.ip020 { h with cell := fun b => if b = a then .r020 y else h.cell b } = Heap.ip020 h := by
    funext b
    simp only [Heap.ip020]
    by_cases e : b = a
    · subst e; simp only [if_true, hx]
    · simp only [if_neg e]
  have e9 : Heap.ip040 { h with cell := fun b => if b = a then .r020 y else h.cell b } = Heap.ip040 h := by
    funext b
    simp only [Heap.ip040]
    by_cases e : b = a
    · subst e; simp only [if_true, hx]
    · simp only [if_neg e]
  have e10 : Heap.ip100 { h with cell := fun b => if b = a then .r020 y else h.cell b } = Heap.ip100 h := by
    funext b
    simp only [Heap.ip100]
    by_cases e : b = a
    · subst e; simp only [if_true, hx]
    · simp only [if_neg e]
  have e11 : Heap.r040 { h with cell := fun b => if b = a then .r020 y else h.cell b } = Heap.r040 h := by
    funext b
    simp only [Heap.r040]
    by_cases e : b = a
    · subst e; simp only [if_true, hx]
    · simp only [if_neg e]
  have e12 : Heap.r100 { h with cell := fun b => if b = a then .r020 y else h.cell b } = Heap.r100 h := by
    funext b
    simp only [Heap.r100]
    by_cases e : b = a
    · subst e; simp only [if_true, hx]
    · simp only [if_neg e]
  refine ⟨?_, ?_, ?_⟩ <;> funext r <;>
    simp only [view020, View.slice, View.ptr, View.opt, View.list, leaf, viewIp020, viewIp040, viewIp100, viewRoute, viewDns, e0, e1, e2, e3, e4, e5, e6, e7, e8, e9, e10, e11, e12]

theorem setTop_040 {h : Heap} {a : Addr} {x y : HNew} (hx : h.cell a = .r040 x) :
    view040.load { h with cell := fun b => if b = a then .r040 y else h.cell b } = view040.load h ∧
    view040.cells { h with cell := fun b => if b = a then .r040 y else h.cell b } = view040.cells h ∧
    view040.arrays { h with cell := fun b => if b = a then .r040 y else h.cell b } = view040.arrays h := by
  have e0 : Heap.bytes { h with cell := fun b => if b = a then .r040 y else h.cell b } = Heap.bytes h := by
    funext b
    simp only [Heap.bytes]
    by_cases e : b = a
    · subst e; simp only [if_true, hx]
    · simp only [if_neg e]
  have e1 : Heap.strs { h with cell := fun b => if b = a then .r040 y else h.cell b } = Heap.strs h := by
    funext b
    simp only [Heap.strs]
    by_cases e : b = a
    · subst e; simp only [if_true, hx]
    · simp only [if_neg e]
  have e2 : Heap.int { h with cell := fun b => if b = a then .r040 y else h.cell b } = Heap.int h := by
    funext b
    simp only [Heap.int]
    by_cases e : b = a
    · subst e; simp only [if_true, hx]
    · simp only [if_neg e]
  have e3 : Heap.routeArr { h with cell := fun b => if b = a then .r040 y else h.cell b } = Heap.routeArr h := by
    funext b
    simp only [Heap.routeArr]
    by_cases e : b = a
    · subst e; simp only [if_true, hx]
    · simp only [if_neg e]
  have e4 : Heap.ptrs { h with cell := fun b => if b = a then .r040 y else h.cell b } = Heap.ptrs h := by
    funext b
    simp only [Heap.ptrs]
    by_cases e : b = a
    · subst e; simp only [if_true, hx]
    · simp only [if_neg e]
  have e5 : Heap.route { h with cell := fun b => if b = a then .r040 y else h.cell b } = Heap.route h := by
    funext b
    simp only [Heap.route]
    by_cases e : b = a
    · subst e; simp only [if_true, hx]
    · simp only [if_neg e]
  have e6 : Heap.intf040 { h with cell := fun b => if b = a then .r040 y else h.cell b } = Heap.intf040 h := by
    funext b
    simp only [Heap.intf040]
    by_cases e : b = a
    · subst e; simp only [if_true, hx]
    · simp only [if_neg e]
  have e7 : Heap.intf100 { h with cell := fun b => if b = a then .r040 y else h.cell b } = Heap.intf100 h := by
    funext b
    simp only [Heap.intf100]
    by_cases e : b = a
    · subst e; simp only [if_true, hx]
    · simp only [if_neg e]
  have e8 : Heap.ip020 { h with cell := fun b => if b = a then .r040 y else h.cell b } = Heap.ip020 h := by
    funext b
    simp only [Heap.ip020]
    by_cases e : b = a
    · subst e; simp only [if_true, hx]
    · simp only [if_neg e]
  have e9 : Heap.ip040 { h with cell := fun b => if b = a then .r040 y else h.cell b } = Heap.ip040 h := by
    funext b
    simp only [Heap.ip040]
    by_cases e : b = a
    · subst e; simp only [if_true, hx]
    · simp only [if_neg e]
  have e10 : Heap.ip100 { h with cell := fun b => if b = a then .r040 y else h.cell b } = Heap.ip100 h := by
    funext b
    simp only [Heap.ip100]
    by_cases e : b = a
    · subst e; simp only [if_true, hx]
    · simp only [if_neg e]
  have e11 : Heap.r020 { h with cell := fun b => if b = a then .r040 y else h.cell b } = Heap.r020 h := by
    funext b
    simp only [Heap.r020]
    by_cases e : b = a
    · subst e; simp only [if_true, hx]
    · simp only [if_neg e]
  have e12 : Heap.r100 { h with cell := fun b => if b = a then .r040 y else h.cell b } = Heap.r100 h := by
    funext b
    simp only [Heap.r100]
    by_cases e : b = a
    · subst e; simp only [if_true, hx]
    · simp only [if_neg e]
  refine ⟨?_, ?_, ?_⟩ <;> funext r <;>
    simp only [view040, View.slice, View.ptr, View.opt, View.list, leaf, viewIp020, viewIp040, viewIp100, viewRoute, viewDns, e0, e1, e2, e3, e4, e5, e6, e7, e8, e9, e10, e11, e12]

theorem setTop_100 {h : Heap} {a : Addr} {x y : HNew} (hx : h.cell a = .r100 x) :
    view100.load { h with cell := fun b => if b = a then .r100 y else h.cell b } = view100.load h ∧
    view100.cells { h with cell := fun b => if b = a then .r100 y else h.cell b } = view100.cells h ∧
    view100.arrays { h with cell := fun b => if b = a then .r100 y else h.cell b } = view100.arrays h := by
  have e0 : Heap.bytes { h with cell := fun b => if b = a then .r100 y else h.cell b } = Heap.bytes h := by
    funext b
    simp only [Heap.bytes]
    by_cases e : b = a
    · subst e; simp only [if_true, hx]
    · simp only [if_neg e]
  have e1 : Heap.strs { h with cell := fun b => if b = a then .r100 y else h.cell b } = Heap.strs h := by
    funext b
    simp only [Heap.strs]
    by_cases e : b = a
    · subst e; simp only [if_true, hx]
    · simp only [if_neg e]
  have e2 : Heap.int { h with cell := fun b => if b = a then .r100 y else h.cell b } = Heap.int h := by
    funext b
    simp only [Heap.int]
    by_cases e : b = a
    · subst e; simp only [if_true, hx]
    · simp only [if_neg e]
  have e3 : Heap.routeArr { h with cell := fun b => if b = a then .r100 y else h.cell b } = Heap.routeArr h := by
    funext b
    simp only [Heap.routeArr]
    by_cases e : b = a
    · subst e; simp only [if_true, hx]
    · simp only [if_neg e]
  have e4 : Heap.ptrs { h with cell := fun b => if b = a then .r100 y else h.cell b } = Heap.ptrs h := by
    funext b
    simp only [Heap.ptrs]
    by_cases e : b = a
    · subst e; simp only [if_true, hx]
    · simp only [if_neg e]
  have e5 : Heap.route { h with cell := fun b => if b = a then .r100 y else h.cell b } = Heap.route h := by
    funext b
    simp only [Heap.route]
    by_cases e : b = a
    · subst e; simp only [if_true, hx]
    · simp only [if_neg e]
  have e6 : Heap.intf040 { h with cell := fun b => if b = a then .r100 y else h.cell b } = Heap.intf040 h := by
    funext b
    simp only [Heap.intf040]
    by_cases e : b = a
    · subst e; simp only [if_true, hx]
    · simp only [if_neg e]
  have e7 : Heap.intf100 { h with cell := fun b => if b = a then .r100 y else h.cell b } = Heap.intf100 h := by
    funext b
    simp only [Heap.intf100]
    by_cases e : b = a
    · subst e; simp only [if_true, hx]
    · simp only [if_neg e]
  have e8 : Heap.ip020 { h with cell := fun b => if b = a then .r100 y else h.cell b } = Heap.ip020 h := by
    funext b
    simp only [Heap.ip020]
    by_cases e : b = a
    · subst e; simp only [if_true, hx]
    · simp only [if_neg e]
  have e9 : Heap.ip040 { h with cell := fun b => if b = a then .r100 y else h.cell b } = Heap.ip040 h := by
    funext b
    simp only [Heap.ip040]
    by_cases e : b = a
    · subst e; simp only [if_true, hx]
    · simp only [if_neg e]
  have e10 : Heap.ip100 { h with cell := fun b => if b = a then .r100 y else h.cell b } = Heap.ip100 h := by
    funext b
    simp only [Heap.ip100]
    by_cases e : b = a
    · subst e; simp only [if_true, hx]
    · simp only [if_neg e]
  have e11 : Heap.r020 { h with cell := fun b => if b = a then .r100 y else h.cell b } = Heap.r020 h := by
    funext b
    simp only [Heap.r020]
    by_cases e : b = a
    · subst e; simp only [if_true, hx]
    · simp only [if_neg e]
  have e12 : Heap.r040 { h with cell := fun b => if b = a then .r100 y else h.cell b } = Heap.r040 h := by
    funext b
    simp only [Heap.r040]
    by_cases e : b = a
    · subst e; simp only [if_true, hx]
    · simp only [if_neg e]
  refine ⟨?_, ?_, ?_⟩ <;> funext r <;>
    simp only [view100, View.slice, View.ptr, View.opt, View.list, leaf, viewIp020, viewIp040, viewIp100, viewRoute, viewDns, e0, e1, e2, e3, e4, e5, e6, e7, e8, e9, e10, e11, e12]

/-- Setting the version of a result in memory. -/
theorem setVersion_ok {h : Heap} {r : HResult} (hr : InHeap h r) (ht : TopTyped h r) :
    ∃ h1, r.setVersion h = .ok ((), h1) ∧ InHeap h1 r ∧ h1.next = h.next ∧ (∀ a, a ≠ top r → h1.cell a = h.cell a) ∧
      view.load h1 r = (if (view.load h r).version = [] then withVersion (newestOf r) (view.load h r) else view.load h r) := by
  by_cases hv : (view.load h r).version = []
  · rw [if_pos hv]
    cases r with
    | v020 a =>
      obtain ⟨x, hx⟩ := ht
      have hv2 : (h.r020 a).cniVersion = [] := hv
      refine ⟨{ h with cell := fun b => if b = a then .r020 { h.r020 a with cniVersion := newestOf (.v020 a) } else h.cell b },
        by simp only [HResult.setVersion, if_pos hv2]; rfl, ?_⟩
      obtain ⟨s1, s2, s3⟩ := setTop_020 (y := { h.r020 a with cniVersion := newestOf (.v020 a) }) hx
      have hread1 : Heap.r020 { h with cell := fun b => if b = a then .r020 { h.r020 a with cniVersion := newestOf (.v020 a) } else h.cell b } a =
          { h.r020 a with cniVersion := newestOf (.v020 a) } := read_r020 _ _ (by simp)
      have hcells : view.cells { h with cell := fun b => if b = a then .r020 { h.r020 a with cniVersion := newestOf (.v020 a) } else h.cell b } (.v020 a) =
          view.cells h (.v020 a) := by
        simp only [view, View.ptr, hread1, s2]
        rfl
      have harr : view.arrays { h with cell := fun b => if b = a then .r020 { h.r020 a with cniVersion := newestOf (.v020 a) } else h.cell b } (.v020 a) =
          view.arrays h (.v020 a) := by
        simp only [view, View.ptr, hread1, s3]
        rfl
      refine ⟨⟨?_, ?_, ?_⟩, rfl, ?_, ?_⟩
      · rw [hcells]; exact hr.cells
      · rw [harr]; exact hr.arrays
      · rw [hcells, harr]; exact hr.apart
      · intro b hb
        simp only [top] at hb
        simp only [if_neg hb]
      · simp only [view, View.ptr, hread1, s1]
        rfl
    | v040 a =>
      obtain ⟨x, hx⟩ := ht
      have hv2 : (h.r040 a).cniVersion = [] := hv
      refine ⟨{ h with cell := fun b => if b = a then .r040 { h.r040 a with cniVersion := newestOf (.v040 a) } else h.cell b },
        by simp only [HResult.setVersion, if_pos hv2]; rfl, ?_⟩
      obtain ⟨s1, s2, s3⟩ := setTop_040 (y := { h.r040 a with cniVersion := newestOf (.v040 a) }) hx
      have hread1 : Heap.r040 { h with cell := fun b => if b = a then .r040 { h.r040 a with cniVersion := newestOf (.v040 a) } else h.cell b } a =
          { h.r040 a with cniVersion := newestOf (.v040 a) } := read_r040 _ _ (by simp)
      have hcells : view.cells { h with cell := fun b => if b = a then .r040 { h.r040 a with cniVersion := newestOf (.v040 a) } else h.cell b } (.v040 a) =
          view.cells h (.v040 a) := by
        simp only [view, View.ptr, hread1, s2]
        rfl
      have harr : view.arrays { h with cell := fun b => if b = a then .r040 { h.r040 a with cniVersion := newestOf (.v040 a) } else h.cell b } (.v040 a) =
          view.arrays h (.v040 a) := by
        simp only [view, View.ptr, hread1, s3]
        rfl
      refine ⟨⟨?_, ?_, ?_⟩, rfl, ?_, ?_⟩
      · rw [hcells]; exact hr.cells
      · rw [harr]; exact hr.arrays
      · rw [hcells, harr]; exact hr.apart
      · intro b hb
        simp only [top] at hb
        simp only [if_neg hb]
      · simp only [view, View.ptr, hread1, s1]
        rfl
    | v100 a =>
      obtain ⟨x, hx⟩ := ht
      have hv2 : (h.r100 a).cniVersion = [] := hv
      refine ⟨{ h with cell := fun b => if b = a then .r100 { h.r100 a with cniVersion := newestOf (.v100 a) } else h.cell b },
        by simp only [HResult.setVersion, if_pos hv2]; rfl, ?_⟩
      obtain ⟨s1, s2, s3⟩ := setTop_100 (y := { h.r100 a with cniVersion := newestOf (.v100 a) }) hx
      have hread1 : Heap.r100 { h with cell := fun b => if b = a then .r100 { h.r100 a with cniVersion := newestOf (.v100 a) } else h.cell b } a =
          { h.r100 a with cniVersion := newestOf (.v100 a) } := read_r100 _ _ (by simp)
      have hcells : view.cells { h with cell := fun b => if b = a then .r100 { h.r100 a with cniVersion := newestOf (.v100 a) } else h.cell b } (.v100 a) =
          view.cells h (.v100 a) := by
        simp only [view, View.ptr, hread1, s2]
        rfl
      have harr : view.arrays { h with cell := fun b => if b = a then .r100 { h.r100 a with cniVersion := newestOf (.v100 a) } else h.cell b } (.v100 a) =
          view.arrays h (.v100 a) := by
        simp only [view, View.ptr, hread1, s3]
        rfl
      refine ⟨⟨?_, ?_, ?_⟩, rfl, ?_, ?_⟩
      · rw [hcells]; exact hr.cells
      · rw [harr]; exact hr.arrays
      · rw [hcells, harr]; exact hr.apart
      · intro b hb
        simp only [top] at hb
        simp only [if_neg hb]
      · simp only [view, View.ptr, hread1, s1]
        rfl
  · rw [if_neg hv]
    refine ⟨h, ?_, hr, rfl, fun _ _ => rfl, rfl⟩
    cases r with
    | v020 a => have hv : (h.r020 a).cniVersion ≠ [] := hv; simp only [HResult.setVersion, if_neg hv]
    | v040 a => have hv : (h.r040 a).cniVersion ≠ [] := hv; simp only [HResult.setVersion, if_neg hv]
    | v100 a => have hv : (h.r100 a).cniVersion ≠ [] := hv; simp only [HResult.setVersion, if_neg hv]

/-- `GetAsVersion` returns the value C27 is about; it changes the receiver in one way only: an unset version is set. -/
theorem c56_receiver {h h' : Heap} {r r' : HResult} {w : Bytes} (hr : InHeap h r) (ht : TopTyped h r) (he : r.getAsVersion w h = .ok (r', h')) :
    (view.load h r).getAsVersion w = .ok (view.load h' r') ∧
      view.load h' r = (if (view.load h r).version = [] then withVersion (newestOf r) (view.load h r) else view.load h r) ∧
      ∀ a, a < h.next → a ≠ top r → h'.cell a = h.cell a := by
  obtain ⟨h1, s1, s2, s3, s4, s5⟩ := setVersion_ok hr ht
  have e : r.getAsVersion w h = (r.setVersion h >>= fun p => hConvert r w p.2) := rfl
  rw [e, s1] at he
  simp only [Out.bind_ok] at he
  obtain ⟨k1, k2⟩ := c56_keeps s2 he
  refine ⟨?_, k2.trans s5, fun a ha hne => (k1 a (by omega)).trans (s4 a hne)⟩
  rw [← c56_value s2 he, s5]
  cases r with
  | v020 a => simp only [Result.getAsVersion, view]; split <;> rename_i hc <;> simp only [Result.version, hc, if_true, if_false, withVersion] <;> rfl
  | v040 a => simp only [Result.getAsVersion, view]; split <;> rename_i hc <;> simp only [Result.version, hc, if_true, if_false, withVersion] <;> rfl
  | v100 a => simp only [Result.getAsVersion, view]; split <;> rename_i hc <;> simp only [Result.version, hc, if_true, if_false, withVersion] <;> rfl

/-! Non-vacuity: a 0.4.0 result with an interface, an address and a route, and its conversions. -/

/-- Proof device: models no code. -/
def Example.memory : Heap where
  next := 22
  cell a := [Cell.bytes [10, 0, 0, 2], .bytes [255, 255, 255, 0], .bytes [10, 0, 0, 1], .int 0,
    .ip040 { version := b!"4", interface := some 3, ip := 0, mask := 1, gateway := 2 }, .ptrs [some 4],
    .intf040 { name := b!"eth0", mac := [], sandbox := b!"/ns" }, .ptrs [some 6], .bytes [0, 0, 0, 0], .bytes [0, 0, 0, 0], .int 7,
    .route { dstIp := 8, dstMask := 9, gw := 2, mtu := 1400, advmss := 0, priority := 0, table := some 10, scope := none }, .ptrs [some 11],
    .strs [b!"10.0.0.53"], .strs [], .strs [],
    .r040 { cniVersion := b!"0.4.0", interfaces := 7, ips := 5, routes := 12, dns := { nameservers := 13, domain := [], search := 14, options := 15 } },
    .ip100 { interface := some 3, ip := 0, mask := 1, gateway := 2 }, .ptrs [some 17], .intf100 { name := b!"eth0" }, .ptrs [some 19],
    .r100 { cniVersion := b!"1.0.0", interfaces := 20, ips := 18, routes := 12, dns := { nameservers := 13, domain := [], search := 14, options := 15 } }].getD a default

example : InHeap Example.memory (.v040 16) ∧ TopTyped Example.memory (.v040 16) ∧ (view.load Example.memory (.v040 16)).version = b!"0.4.0" :=
  ⟨⟨by decide +kernel, by decide +kernel, by decide +kernel⟩, ⟨_, rfl⟩, by decide +kernel⟩

example : (hConvert (.v040 16) b!"1.0.0" Example.memory).toOption.map (fun p => view.load p.2 p.1) =
    some (.v100 { cniVersion := b!"1.0.0", interfaces := [some { name := b!"eth0", mac := [], sandbox := b!"/ns" }],
                  ips := [some { interface := some 0, address := ⟨[10, 0, 0, 2], [255, 255, 255, 0]⟩, gateway := [10, 0, 0, 1] }],
                  routes := [some { dst := ⟨[0, 0, 0, 0], [0, 0, 0, 0]⟩, gw := [10, 0, 0, 1], mtu := 1400, table := some 7 }],
                  dns := { nameservers := [b!"10.0.0.53"] } }) := by decide +kernel

theorem exists_ok {o : Out (α × β)} (h : o.toOption.isSome) : ∃ a b, o = .ok (a, b) := by
  cases o with
  | ok p => exact ⟨p.1, p.2, rfl⟩
  | err e => cases h
  | panic => cases h

/-- The hypotheses of `c56_independent`. -/
example : (∃ r' h', hConvert (.v040 16) b!"0.2.0" Example.memory = .ok (r', h')) ∧ (view.load Example.memory (.v040 16)).version ≠ target b!"0.2.0" ∧
    ¬ (Is1x (view.load Example.memory (.v040 16)).version ∧ Is1x (target b!"0.2.0")) :=
  ⟨exists_ok (by decide +kernel), by decide +kernel, by unfold Is1x; decide +kernel⟩

/-- The hypotheses of `c56_shared`. -/
example : (∃ r' h', hConvert (.v100 21) b!"1.1.0" Example.memory = .ok (r', h')) ∧ InHeap Example.memory (.v100 21) ∧
    (view.load Example.memory (.v100 21)).version ≠ target b!"1.1.0" ∧ Is1x (view.load Example.memory (.v100 21)).version ∧ Is1x (target b!"1.1.0") :=
  ⟨exists_ok (by decide +kernel), ⟨by decide +kernel, by decide +kernel, by decide +kernel⟩, by decide +kernel, .inl (by decide +kernel),
    .inr (by decide +kernel)⟩

/-- The same version. -/
example : (view.load Example.memory (.v040 16)).version = target b!"0.4.0" := by decide +kernel

end Verif
