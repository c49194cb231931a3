import Verif.Model.Grid
import Verif.Spec.Grid
import Verif.Lemmas.Mesh
import Mathlib.Data.List.Flatten

/-!
# Helper lemmas about grids
-/

namespace Verif.Mesh
open Verif.Py Verif.Model Verif.Spec

theorem mapM_eq_map {α β : Type} {f : α → Except PyErr β} {g : α → β} {l : List α}
    (h : ∀ x ∈ l, f x = .ok (g x)) : l.mapM f = .ok (l.map g) := by
  refine mapM_of_forall₂ ?_
  rw [List.forall₂_map_right_iff, List.forall₂_same]
  exact h

theorem flatMap_get {α β : Type} {n j : ℕ} {f : α → List β} {xs : List α} {x : α} {i : ℕ}
    (hl : ∀ x ∈ xs, (f x).length = n) (hj : j < n) (hx : xs[i]? = some x) :
    (xs.flatMap f)[i * n + j]? = (f x)[j]? := by
  induction xs generalizing i with
  | nil => simp at hx
  | cons a xs ih =>
    have ha := hl a List.mem_cons_self
    rw [List.flatMap_cons]
    cases i with
    | zero =>
      rw [List.getElem?_cons_zero] at hx
      cases hx
      rw [List.getElem?_append_left (by omega)]
      simp
    | succ i =>
      rw [List.getElem?_cons_succ] at hx
      have : (i + 1) * n + j = (f a).length + (i * n + j) := by rw [ha]; ring
      rw [this, List.getElem?_append_right (by omega), Nat.add_sub_cancel_left]
      exact ih (fun x hx => hl x (List.mem_cons_of_mem _ hx)) hx

theorem length_flatMap_const {α β : Type} {n : ℕ} {f : α → List β} {xs : List α}
    (hl : ∀ x ∈ xs, (f x).length = n) : (xs.flatMap f).length = xs.length * n := by
  induction xs with
  | nil => simp
  | cons a xs ih =>
    rw [List.flatMap_cons, List.length_append, hl a List.mem_cons_self,
      ih fun x hx => hl x (List.mem_cons_of_mem _ hx), List.length_cons]
    ring

theorem lt_of_get {α : Type} {l : List α} {i : ℕ} {x : α} (h : l[i]? = some x) : i < l.length :=
  (List.getElem?_eq_some_iff.1 h).1

/-- The index of a grid point. -/
def index3 (order : Order) (n1 n2 n3 : ℕ) (v : ℕ × ℕ × ℕ) : ℕ :=
  match order with
  | .C => (v.1 * n2 + v.2.1) * n3 + v.2.2
  | .F => v.1 + n1 * (v.2.1 + n2 * v.2.2)

/-- The index of a point of a 2D grid. -/
def index2 (order : Order) (n1 n2 : ℕ) (v : ℕ × ℕ) : ℕ :=
  match order with
  | .C => v.1 * n2 + v.2
  | .F => v.1 + n1 * v.2

theorem grid3_get {α β γ : Type} (order : Order) {xs : List α} {ys : List β} {zs : List γ}
    {i j k : ℕ} {x : α} {y : β} {z : γ} (hx : xs[i]? = some x) (hy : ys[j]? = some y)
    (hz : zs[k]? = some z) :
    (grid3 order xs ys zs)[index3 order xs.length ys.length zs.length (i, j, k)]? = some (x, y, z) := by
  have li := lt_of_get hx
  have lj := lt_of_get hy
  have lk := lt_of_get hz
  cases order with
  | C =>
    have e : index3 .C xs.length ys.length zs.length (i, j, k) =
        i * (ys.length * zs.length) + (j * zs.length + k) := by simp only [index3]; ring
    have hlt : j * zs.length + k < ys.length * zs.length := by
      have := Nat.mul_le_mul_right zs.length (Nat.succ_le_of_lt lj)
      rw [Nat.succ_mul] at this; omega
    rw [e, grid3, flatMap_get (n := ys.length * zs.length) ?_ hlt hx]
    · rw [flatMap_get (n := zs.length) (by simp) lk hy, List.getElem?_map, hz]; rfl
    · intro x _; exact length_flatMap_const (by simp)
  | F =>
    have e : index3 .F xs.length ys.length zs.length (i, j, k) =
        k * (ys.length * xs.length) + (j * xs.length + i) := by simp only [index3]; ring
    have hlt : j * xs.length + i < ys.length * xs.length := by
      have := Nat.mul_le_mul_right xs.length (Nat.succ_le_of_lt lj)
      rw [Nat.succ_mul] at this; omega
    rw [e, grid3, flatMap_get (n := ys.length * xs.length) ?_ hlt hz]
    · rw [flatMap_get (n := xs.length) (by simp) li hy, List.getElem?_map, hx]; rfl
    · intro x _; exact length_flatMap_const (by simp)

theorem grid2_get {α β : Type} (order : Order) {xs : List α} {ys : List β}
    {i j : ℕ} {x : α} {y : β} (hx : xs[i]? = some x) (hy : ys[j]? = some y) :
    (grid2 order xs ys)[index2 order xs.length ys.length (i, j)]? = some (x, y) := by
  have li := lt_of_get hx
  have lj := lt_of_get hy
  cases order with
  | C =>
    rw [index2, grid2, flatMap_get (n := ys.length) (by simp) lj hx, List.getElem?_map, hy]; rfl
  | F =>
    have e : index2 .F xs.length ys.length (i, j) = j * xs.length + i := by simp only [index2]; ring
    rw [e, grid2, flatMap_get (n := xs.length) (by simp) li hy, List.getElem?_map, hx]; rfl

/-! ## Reordering of cells -/

theorem reverseBlock_eq {α : Type} {n2 : ℕ} {P a R : List α} {s : ℕ} (hP : P.length = s * n2)
    (ha : a.length = n2) : reverseBlock n2 (P ++ (a ++ R)) s = P ++ a.reverse ++ R := by
  unfold reverseBlock
  simp only
  have h1 : (P ++ (a ++ R)).take (s * n2) = P := by
    rw [← hP, List.take_left]
  have h2 : (P ++ (a ++ R)).take (s * n2 + n2) = P ++ a := by
    rw [← List.append_assoc, List.take_left']
    rw [List.length_append, hP, ha]
  have h3 : (P ++ (a ++ R)).drop (s * n2 + n2) = R := by
    rw [← List.append_assoc, List.drop_left']
    rw [List.length_append, hP, ha]
  rw [h1, h2, h3, List.drop_left' hP]

theorem foldl_reverseBlock {α : Type} {n2 : ℕ} (L : List (List α)) (P : List α) (s : ℕ)
    (hP : P.length = s * n2) (hL : ∀ a ∈ L, a.length = n2) :
    (List.range' s L.length).foldl (reverseBlock n2) (P ++ L.flatten) =
      P ++ (L.map List.reverse).flatten := by
  induction L generalizing P s with
  | nil => simp
  | cons a L ih =>
    have ha := hL a List.mem_cons_self
    rw [List.length_cons, List.range'_succ, List.foldl_cons, List.flatten_cons,
      reverseBlock_eq hP ha, ih _ _ _ fun a h => hL a (List.mem_cons_of_mem _ h)]
    · simp
    · rw [List.length_append, List.length_reverse, hP, ha]; ring

theorem reorder {α : Type} {n1 n2 : ℕ} (L : List (List α)) (h1 : L.length = n1)
    (hL : ∀ a ∈ L, a.length = n2) :
    (List.range n1).foldl (reverseBlock n2) L.flatten = (L.map List.reverse).flatten := by
  have := foldl_reverseBlock L [] 0 (by simp) hL
  rw [h1, ← List.range_eq_range'] at this
  simpa using this

theorem reverse_flatten {α : Type} (L : List (List α)) :
    L.flatten.reverse = (L.reverse.map List.reverse).flatten := by
  rw [List.reverse_flatten, List.map_reverse]

/-- The order of cells after the reordering loop. -/
theorem cells_order {β : Type} (layer : Bool) (nx ny nz : ℕ) (f : ℕ × ℕ × ℕ → β) :
    let order : Order := if layer then .F else .C
    let cells := (grid3 order (List.range nx) (List.range ny) (List.range nz)).map f
    (List.range (match order with
      | .F => nz
      | .C => nx * ny)).foldl (reverseBlock (match order with
      | .F => nx * ny
      | .C => nz)) (match order with
      | .F => cells.reverse
      | .C => cells) = (listing layer nx ny nz).map f := by
  cases layer with
  | true =>
    simp only [if_true, listing, grid3]
    have e : (((List.range nz).flatMap fun z => (List.range ny).flatMap fun y =>
        (List.range nx).map fun x => (x, y, z)).map f).reverse =
        (((List.range nz).reverse.map fun z => (((List.range ny).flatMap fun y =>
        (List.range nx).map fun x => (x, y, z)).map f).reverse)).flatten := by
      rw [List.map_flatMap, List.flatMap_def, reverse_flatten, ← List.map_reverse, List.map_map]
      rfl
    rw [e, reorder]
    · rw [List.map_map, List.map_flatMap, List.flatMap_def]
      congr 1
      refine List.map_congr_left fun z _ => ?_
      simp
    · simp
    · intro a ha
      obtain ⟨z, -, rfl⟩ := List.mem_map.1 ha
      rw [List.length_reverse, List.length_map, length_flatMap_const (n := nx) (by simp)]
      rw [List.length_range]; ring
  | false =>
    simp only [Bool.false_eq_true, if_false, listing, grid3]
    have e : ((List.range nx).flatMap fun x => (List.range ny).flatMap fun y =>
        (List.range nz).map fun z => (x, y, z)).map f =
        ((List.range nx).flatMap fun x => (List.range ny).map fun y =>
          (List.range nz).map fun z => f (x, y, z)).flatten := by
      rw [List.map_flatMap, List.flatMap_def, List.flatMap_def, List.flatten_flatten, List.map_map]
      congr 1
      refine List.map_congr_left fun x _ => ?_
      simp only [Function.comp]
      rw [List.map_flatMap, List.flatMap_def]
      simp only [List.map_map]
      rfl
    rw [e, reorder]
    · rw [List.map_flatMap, List.map_flatMap, List.flatMap_def, List.flatMap_def, List.flatten_flatten,
        List.map_map]
      congr 1
      refine List.map_congr_left fun x _ => ?_
      simp only [Function.comp]
      rw [List.map_map, List.map_flatMap, List.flatMap_def]
      congr 1
      refine List.map_congr_left fun y _ => ?_
      simp only [Function.comp]
      rw [← List.map_reverse, List.map_map]
      rfl
    · rw [length_flatMap_const (n := ny) (by simp)]
      simp
    · intro a ha
      obtain ⟨x, -, ha⟩ := List.mem_flatMap.1 ha
      obtain ⟨y, -, rfl⟩ := List.mem_map.1 ha
      simp

theorem mem_listing {layer : Bool} {nx ny nz i j k : ℕ} :
    (i, j, k) ∈ listing layer nx ny nz ↔ i < nx ∧ j < ny ∧ k < nz := by
  cases layer <;> simp [listing] <;> tauto

theorem mem_grid3 {order : Order} {nx ny nz : ℕ} {v : ℕ × ℕ × ℕ}
    (h : v ∈ grid3 order (List.range nx) (List.range ny) (List.range nz)) :
    v.1 < nx ∧ v.2.1 < ny ∧ v.2.2 < nz := by
  obtain ⟨i, j, k⟩ := v
  cases order <;> simp [grid3] at h <;> tauto

theorem mem_grid2 {order : Order} {nx ny : ℕ} {v : ℕ × ℕ}
    (h : v ∈ grid2 order (List.range nx) (List.range ny)) : v.1 < nx ∧ v.2 < ny := by
  obtain ⟨i, j⟩ := v
  cases order <;> simp [grid2] at h <;> tauto

theorem mem_meshVertices3 {v w : ℕ × ℕ × ℕ} (h : w ∈ meshVertices3 v) :
    w.1 ≤ v.1 + 1 ∧ w.2.1 ≤ v.2.1 + 1 ∧ w.2.2 ≤ v.2.2 + 1 := by
  simp only [meshVertices3, List.mem_cons, List.not_mem_nil, or_false] at h
  rcases h with rfl | rfl | rfl | rfl | rfl | rfl | rfl | rfl <;> simp

theorem mem_meshVertices2 {v w : ℕ × ℕ} (h : w ∈ meshVertices2 v) :
    w.1 ≤ v.1 + 1 ∧ w.2 ≤ v.2 + 1 := by
  simp only [meshVertices2, List.mem_cons, List.not_mem_nil, or_false] at h
  rcases h with rfl | rfl | rfl | rfl <;> simp

section
variable {K : Type} [Field K]

theorem cumsum_get (d : List K) (i : ℕ) (h : i < d.length) :
    (cumsum d)[i]? = some ((d.take (i + 1)).sum) := by
  induction d generalizing i with
  | nil => simp at h
  | cons x d ih =>
    cases i with
    | zero => simp [cumsum]
    | succ i =>
      rw [cumsum, List.getElem?_cons_succ, List.getElem?_map, ih i (by simpa using h)]
      simp

theorem edges_get (d : List K) (i : ℕ) (h : i ≤ d.length) : (edges d)[i]? = some (plane d i) := by
  rw [edges, cumsum_get _ _ (by simp; omega)]
  simp [plane]

theorem edges_length (d : List K) : (edges d).length = d.length + 1 := by
  rw [edges, cumsum_length, List.length_cons]

theorem grid3d_ok [LinearOrder K] (dx dy dz : List K) (layer : Bool) :
    grid3d dx dy dz (if layer then .F else .C) =
      .ok ((grid3 (if layer then .F else .C) (edges dx) (edges dy) (edges dz)).map
          fun p => (⟨p.1, p.2.1, p.2.2⟩ : P3 K),
        (listing layer dx.length dy.length dz.length).map fun v => (meshVertices3 v).map
          (index3 (if layer then .F else .C) (dx.length + 1) (dy.length + 1) (dz.length + 1))) := by
  unfold grid3d
  have : ∀ order : Order, (grid3 order (List.range dx.length) (List.range dy.length)
      (List.range dz.length)).mapM (fun v =>
      (meshVertices3 v).mapM (ravel3 order (dx.length + 1) (dy.length + 1) (dz.length + 1))) =
      .ok ((grid3 order (List.range dx.length) (List.range dy.length) (List.range dz.length)).map
        fun v => (meshVertices3 v).map (index3 order (dx.length + 1) (dy.length + 1) (dz.length + 1))) := by
    intro order
    refine mapM_eq_map fun v hv => mapM_eq_map fun w hw => ?_
    have h1 := mem_grid3 hv
    have h2 := mem_meshVertices3 hw
    unfold ravel3 index3
    rw [if_pos ⟨by omega, by omega, by omega⟩]
    cases order <;> rfl
  simp only [this, ok_bind]
  have := cells_order layer dx.length dy.length dz.length (fun v => (meshVertices3 v).map
          (index3 (if layer then .F else .C) (dx.length + 1) (dy.length + 1) (dz.length + 1)))
  cases layer <;> exact congrArg (fun l => Except.ok (_, l)) this

theorem grid2d_ok [LinearOrder K] (dx dy : List K) (layer : Bool) :
    grid2d dx dy (if layer then .F else .C) =
      .ok (grid2 (if layer then .F else .C) (edges dx) (edges dy),
        (listing2 layer dx.length dy.length).map fun v => (meshVertices2 v).map
          (index2 (if layer then .F else .C) (dx.length + 1) (dy.length + 1))) := by
  unfold grid2d
  have : ∀ order : Order, (grid2 order (List.range dx.length) (List.range dy.length)).mapM (fun v =>
      (meshVertices2 v).mapM (ravel2 order (dx.length + 1) (dy.length + 1))) =
      .ok ((grid2 order (List.range dx.length) (List.range dy.length)).map
        fun v => (meshVertices2 v).map (index2 order (dx.length + 1) (dy.length + 1))) := by
    intro order
    refine mapM_eq_map fun v hv => mapM_eq_map fun w hw => ?_
    have h1 := mem_grid2 hv
    have h2 := mem_meshVertices2 hw
    unfold ravel2 index2
    rw [if_pos ⟨by omega, by omega⟩]
    cases order <;> rfl
  simp only [this, ok_bind]
  cases layer <;> rfl

/-- A grid point is at the place of its planes. -/
theorem point_get (order : Order) (dx dy dz : List K) (o : P3 K) (a b c : ℕ)
    (ha : a ≤ dx.length) (hb : b ≤ dy.length) (hc : c ≤ dz.length) :
    (((grid3 order (edges dx) (edges dy) (edges dz)).map fun p => (⟨p.1, p.2.1, p.2.2⟩ : P3 K)).map
      fun p => (⟨p.x + o.x, p.y + o.y, p.z + o.z⟩ : P3 K))[index3 order (dx.length + 1) (dy.length + 1)
        (dz.length + 1) (a, b, c)]? = some (corner dx dy dz o a b c) := by
  have := grid3_get order (edges_get dx a ha) (edges_get dy b hb) (edges_get dz c hc)
  rw [edges_length, edges_length, edges_length] at this
  rw [List.getElem?_map, List.getElem?_map, this]
  simp only [Option.map_some, corner, Option.some.injEq, P3.mk.injEq]
  exact ⟨add_comm _ _, add_comm _ _, add_comm _ _⟩

theorem point_get2 (order : Order) (dx dy : List K) (o : K × K) (a b : ℕ)
    (ha : a ≤ dx.length) (hb : b ≤ dy.length) :
    ((grid2 order (edges dx) (edges dy)).map fun p => (⟨p.1 + o.1, p.2 + o.2, 0⟩ : P3 K))[
      index2 order (dx.length + 1) (dy.length + 1) (a, b)]? =
      some (⟨o.1 + plane dx a, o.2 + plane dy b, 0⟩ : P3 K) := by
  have := grid2_get order (edges_get dx a ha) (edges_get dy b hb)
  rw [edges_length, edges_length] at this
  rw [List.getElem?_map, this]
  simp only [Option.map_some, Option.some.injEq, P3.mk.injEq, and_true]
  exact ⟨add_comm _ _, add_comm _ _⟩

end

end Verif.Mesh
