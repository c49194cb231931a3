import Verif.Model.Voxelize
import Verif.Props.Grid
import Verif.Lemmas.Reshape
import Verif.Lemmas.Geometry
import Mathlib.Data.List.ProdSigma

/-!
# Lemmas about grids from points
-/

namespace Verif.Mesh
open Verif.Py Verif.Model Verif.Spec Verif.Props

section
variable {K : Type} [Field K] [LinearOrder K]

theorem voronoi_length (x0 : K) (l : List K) : (voronoi x0 l).length = l.length + 1 := by
  induction l generalizing x0 with
  | nil => rfl
  | cons x l ih => rw [voronoi, List.length_cons, ih, List.length_cons]

theorem diff_voronoi_cons (x0 x : K) (l : List K) :
    diff (voronoi x0 (x :: l)) = 2 * (x - x0) :: diff (voronoi (2 * x - x0) l) := by
  cases l with
  | nil => simp [diff, voronoi]; ring
  | cons y l =>
    simp only [diff, voronoi, List.tail_cons, List.zipWith_cons_cons]
    congr 1
    ring

theorem diff_voronoi_length (x0 : K) (l : List K) : (diff (voronoi x0 l)).length = l.length := by
  simp [diff, voronoi_length]

theorem getD_at {l : List K} {i : ℕ} (h : i < l.length) : l.getD i 0 = l[i] := by
  rw [List.getD_eq_getElem?_getD, List.getElem?_eq_getElem h, Option.getD_some]

/-- The points are in the middle of the planes. -/
theorem voronoi_middle (x0 : K) (l : List K) (i : ℕ) (h : i < l.length) :
    (x0 + plane (diff (voronoi x0 l)) i) + (x0 + plane (diff (voronoi x0 l)) (i + 1)) = 2 * l[i] := by
  induction l generalizing x0 i with
  | nil => simp at h
  | cons x l ih =>
    rw [diff_voronoi_cons]
    cases i with
    | zero => simp [plane]; ring
    | succ i =>
      have := ih (2 * x - x0) i (by simpa using h)
      simp only [plane, List.take_succ_cons, List.sum_cons, List.getElem_cons_succ] at this ⊢
      rw [← this]
      ring

theorem unique_sort (l : List K) : (unique l).insertionSort (· ≤ ·) = unique l := by
  apply List.Pairwise.insertionSort_eq
  exact List.pairwise_insertionSort _ _

theorem voronoi1d_unique {l : List K} {x0 : K} (h : 1 < (unique l).length) :
    voronoi1d (unique l) x0 = if ∃ x ∈ l, x ≤ x0 then .error .valueError else .ok (voronoi x0 (unique l)) := by
  unfold voronoi1d
  rw [if_pos h, unique_sort]
  cases hu : unique l with
  | nil => rw [hu] at h; simp at h
  | cons a r =>
    simp only [List.head?_cons]
    have hs : (a :: r).Pairwise (· ≤ ·) := hu ▸ List.pairwise_insertionSort (· ≤ ·) l.dedup
    have hiff : a ≤ x0 ↔ ∃ x ∈ l, x ≤ x0 := by
      constructor
      · intro h
        exact ⟨a, (mem_unique l a).1 (by rw [hu]; simp), h⟩
      · rintro ⟨x, hx, hx0⟩
        have hx' := (mem_unique l x).2 hx
        rw [hu] at hx'
        rcases List.mem_cons.1 hx' with rfl | hx'
        · exact hx0
        · exact le_trans ((List.pairwise_cons.1 hs).1 x hx') hx0
    by_cases h1 : a ≤ x0
    · rw [if_pos h1, if_pos (hiff.1 h1)]
    · rw [if_neg h1, if_neg fun h2 => h1 (hiff.2 h2)]

theorem two_unique {l : List K} : 1 < (unique l).length ↔ ∃ x ∈ l, ∃ y ∈ l, x ≠ y := by
  constructor
  · intro h
    match hu : unique l with
    | [] => rw [hu] at h; simp at h
    | [a] => rw [hu] at h; simp at h
    | a :: b :: r =>
      have hn := unique_nodup l
      rw [hu] at hn
      refine ⟨a, (mem_unique l a).1 (by rw [hu]; simp), b, (mem_unique l b).1 (by rw [hu]; simp), ?_⟩
      rintro rfl
      simp at hn
  · rintro ⟨x, hx, y, hy, hxy⟩
    by_contra h
    have hx := (mem_unique l x).2 hx
    have hy := (mem_unique l y).2 hy
    match hu : unique l with
    | [] => rw [hu] at hx; cases hx
    | [a] =>
      rw [hu, List.mem_singleton] at hx hy
      exact hxy (hx.trans hy.symm)
    | a :: b :: r => rw [hu] at h; simp at h

/-- All combinations of coordinates. -/
def gridPoints (xs ys zs : List K) : List (P3 K) :=
  (xs ×ˢ (ys ×ˢ zs)).map fun v => ⟨v.1, v.2.1, v.2.2⟩

theorem mem_gridPoints {xs ys zs : List K} {p : P3 K} : p ∈ gridPoints xs ys zs ↔ p.x ∈ xs ∧ p.y ∈ ys ∧ p.z ∈ zs := by
  simp only [gridPoints, List.mem_map]
  constructor
  · rintro ⟨⟨x, y, z⟩, h, rfl⟩
    have h' := List.pair_mem_product.1 h
    exact ⟨h'.1, List.pair_mem_product.1 h'.2⟩
  · intro h
    refine ⟨(p.x, p.y, p.z), ?_, rfl⟩
    exact List.pair_mem_product.2 ⟨h.1, List.pair_mem_product.2 h.2⟩

theorem gridPoints_length (xs ys zs : List K) : (gridPoints xs ys zs).length = xs.length * ys.length * zs.length := by
  rw [gridPoints, List.length_map, List.length_product, List.length_product, Nat.mul_assoc]

theorem gridPoints_nodup {xs ys zs : List K} (hx : xs.Nodup) (hy : ys.Nodup) (hz : zs.Nodup) :
    (gridPoints xs ys zs).Nodup := by
  refine (hx.product (hy.product hz)).map ?_
  rintro ⟨a, b, c⟩ ⟨a', b', c'⟩ h
  simp only [P3.mk.injEq] at h
  rw [h.1, h.2.1, h.2.2]

/-- The unique coordinates of points. -/
abbrev coordsX (pts : List (P3 K)) : List K := unique (pts.map (·.x))
abbrev coordsY (pts : List (P3 K)) : List K := unique (pts.map (·.y))
abbrev coordsZ (pts : List (P3 K)) : List K := unique (pts.map (·.z))

theorem pts_subset (pts : List (P3 K)) : pts ⊆ gridPoints (coordsX pts) (coordsY pts) (coordsZ pts) := by
  intro p hp
  rw [mem_gridPoints, mem_unique, mem_unique, mem_unique]
  exact ⟨List.mem_map_of_mem hp, List.mem_map_of_mem hp, List.mem_map_of_mem hp⟩

/-- Different points as many as there are combinations of their coordinates are all of
them. -/
theorem pts_perm {pts : List (P3 K)} (hn : pts.Nodup)
    (h : (coordsX pts).length * (coordsY pts).length * (coordsZ pts).length = pts.length) :
    pts.Perm (gridPoints (coordsX pts) (coordsY pts) (coordsZ pts)) :=
  (List.subperm_of_subset hn (pts_subset pts)).perm_of_length_le (by rw [gridPoints_length, h])

theorem mean_corners [IsStrictOrderedRing K] {dx dy dz : List K} {o : P3 K} {i j k : ℕ} {a b c : K}
    (hx : (o.x + plane dx i) + (o.x + plane dx (i + 1)) = 2 * a)
    (hy : (o.y + plane dy j) + (o.y + plane dy (j + 1)) = 2 * b)
    (hz : (o.z + plane dz k) + (o.z + plane dz (k + 1)) = 2 * c) : mean (corners dx dy dz o (i, j, k)) = ⟨a, b, c⟩ := by
  have h8 : (8 : K) ≠ 0 := by norm_num
  simp only [mean, corners, corner, List.map_cons, List.map_nil, List.sum_cons, List.sum_nil, List.length_cons,
    List.length_nil]
  have e8 : (((0 + 1 + 1 + 1 + 1 + 1 + 1 + 1 + 1 : ℕ)) : K) = 8 := by norm_num
  rw [e8]
  congr 1
  · rw [div_eq_iff h8]; linear_combination 4 * hx
  · rw [div_eq_iff h8]; linear_combination 4 * hy
  · rw [div_eq_iff h8]; linear_combination 4 * hz

end

end Verif.Mesh
