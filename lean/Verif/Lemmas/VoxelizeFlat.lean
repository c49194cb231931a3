import Verif.Spec.VoxelizeFlat
import Verif.Lemmas.Voxelize

/-!
# Lemmas about grids from points with one value on an axis
-/

namespace Verif.Mesh
open Verif.Py Verif.Model Verif.Spec Verif.Props

section
variable {K : Type} [Field K] [LinearOrder K]

/-- The coordinates of the centres along an axis. -/
def axisCenters (x0 : K) (l : List K) : List K := if 1 < (unique l).length then unique l else [x0 + 1 / 2]

theorem mem_axisCenters {x0 c : K} {l : List K} : c ∈ axisCenters x0 l ↔ CentreOn x0 l c := by
  unfold axisCenters CentreOn
  by_cases h : 1 < (unique l).length
  · rw [if_pos h, mem_unique]
    have : TwoValues l := two_unique.1 h
    tauto
  · rw [if_neg h, List.mem_singleton]
    have : ¬ TwoValues l := fun h' => h (two_unique.2 h')
    tauto

theorem axisCenters_nodup (x0 : K) (l : List K) : (axisCenters x0 l).Nodup := by
  unfold axisCenters
  split
  · exact unique_nodup l
  · exact List.nodup_singleton _

open scoped Classical in
theorem voronoi1d_axis [IsStrictOrderedRing K] (l : List K) (x0 : K) :
    voronoi1d (unique l) x0 =
      if TwoValues l ∧ ∃ x ∈ l, x ≤ x0 then .error .valueError else .ok (voronoi x0 (axisCenters x0 l)) := by
  by_cases h : 1 < (unique l).length
  · rw [voronoi1d_unique h]
    have : TwoValues l := two_unique.1 h
    unfold axisCenters
    rw [if_pos h]
    simp only [this, true_and]
  · have : ¬ TwoValues l := fun h' => h (two_unique.2 h')
    unfold voronoi1d axisCenters
    rw [if_neg h, if_neg h, if_neg (fun h => this h.1)]
    have e : 2 * (x0 + 1 / 2) - x0 = x0 + 1 := by
      have h2 : (2 : K) ≠ 0 := two_ne_zero
      field_simp
      ring
    simp only [voronoi, e]

/-- The centres of a grid whose planes are halfway around the given values. -/
theorem grid_centers [IsStrictOrderedRing K] {X Y Z : List K} (hX : X.Nodup) (hY : Y.Nodup) (hZ : Z.Nodup)
    {o : P3 K} {layer : Bool} {material : Str} {m : Mesh K ℤ}
    (h : structuredGrid (diff (voronoi o.x X)) (diff (voronoi o.y Y)) (some (diff (voronoi o.z Z)))
      (some [o.x, o.y, o.z]) layer material = .ok m) :
    ∃ cs, centers m = .ok cs ∧ cs.Nodup ∧ ∀ p, p ∈ cs ↔ p.x ∈ X ∧ p.y ∈ Y ∧ p.z ∈ Z := by
  obtain ⟨m', cells, h1, h2, h3⟩ := C39_grid_3d (diff (voronoi o.x X)) (diff (voronoi o.y Y))
    (diff (voronoi o.z Z)) (some o) layer material
  rw [Option.map_some, h] at h1
  injection h1 with h1
  subst h1
  rw [diff_voronoi_length, diff_voronoi_length, diff_voronoi_length] at h3
  obtain ⟨l1, l2, l3⟩ := C39_listing layer X.length Y.length Z.length
  let g : ℕ × ℕ × ℕ → P3 K := fun v => ⟨X.getD v.1 0, Y.getD v.2.1 0, Z.getD v.2.2 0⟩
  have hcs : (cells.mapM fun c => do let ps ← rowsAt m.points c; .ok (mean ps)) =
      .ok ((listing layer X.length Y.length Z.length).map g) := by
    apply mapM_of_forall₂
    rw [List.forall₂_map_right_iff]
    refine List.Forall₂.flip (forall₂_mem h3 ?_)
    rintro ⟨i, j, k⟩ c hv hc
    obtain ⟨hi, hj, hk⟩ := (l3 i j k).1 hv
    change (do let ps ← rowsAt m.points c; .ok (mean ps)) = Except.ok (g (i, j, k))
    rw [rowsAt_of hc, ok_bind]
    congr 1
    apply mean_corners
    · simpa [g, hi, origin3] using voronoi_middle o.x X i hi
    · simpa [g, hj, origin3] using voronoi_middle o.y Y j hj
    · simpa [g, hk, origin3] using voronoi_middle o.z Z k hk
  refine ⟨(listing layer X.length Y.length Z.length).map g, ?_, ?_, ?_⟩
  · unfold centers
    rw [if_neg (by rw [h2]; simp), h2, List.mapM_cons, hcs, List.mapM_nil]
    change Except.ok _ = _
    rw [List.flatten_cons, List.flatten_nil, List.append_nil]
  · refine List.Nodup.map_on ?_ l1
    rintro ⟨i, j, k⟩ hv ⟨i', j', k'⟩ hv' he
    obtain ⟨hi, hj, hk⟩ := (l3 i j k).1 hv
    obtain ⟨hi', hj', hk'⟩ := (l3 i' j' k').1 hv'
    simp only [g, P3.mk.injEq] at he
    have e1 : i = i' := hX.getElem_inj_iff.1 (by simpa [hi, hi'] using he.1)
    have e2 : j = j' := hY.getElem_inj_iff.1 (by simpa [hj, hj'] using he.2.1)
    have e3 : k = k' := hZ.getElem_inj_iff.1 (by simpa [hk, hk'] using he.2.2)
    rw [e1, e2, e3]
  · rintro ⟨x, y, z⟩
    rw [List.mem_map]
    constructor
    · rintro ⟨⟨i, j, k⟩, hv, he⟩
      obtain ⟨hi, hj, hk⟩ := (l3 i j k).1 hv
      simp only [g, P3.mk.injEq] at he
      obtain ⟨rfl, rfl, rfl⟩ := he
      rw [getD_at hi, getD_at hj, getD_at hk]
      exact ⟨List.getElem_mem _, List.getElem_mem _, List.getElem_mem _⟩
    · rintro ⟨a, b, c⟩
      obtain ⟨i, hi, hx⟩ := List.getElem_of_mem a
      obtain ⟨j, hj, hy⟩ := List.getElem_of_mem b
      obtain ⟨k, hk, hz⟩ := List.getElem_of_mem c
      refine ⟨(i, j, k), (l3 i j k).2 ⟨hi, hj, hk⟩, ?_⟩
      simp only [g, P3.mk.injEq]
      exact ⟨(getD_at hi).trans hx, (getD_at hj).trans hy,
        (getD_at hk).trans hz⟩

/-- What is accepted, and the grid that is made of it. -/
theorem voxelize_ok [IsStrictOrderedRing K] {pts : List (P3 K)} {o : P3 K} {layer : Bool} {material : Str}
    {m : Mesh K ℤ} : voxelize pts o layer material = .ok m ↔
      (coordsX pts).length * (coordsY pts).length * (coordsZ pts).length = pts.length ∧
      ¬ (TwoValues (pts.map (·.x)) ∧ ∃ x ∈ pts.map (·.x), x ≤ o.x) ∧
      ¬ (TwoValues (pts.map (·.y)) ∧ ∃ x ∈ pts.map (·.y), x ≤ o.y) ∧
      ¬ (TwoValues (pts.map (·.z)) ∧ ∃ x ∈ pts.map (·.z), x ≤ o.z) ∧
      structuredGrid (diff (voronoi o.x (axisCenters o.x (pts.map (·.x)))))
        (diff (voronoi o.y (axisCenters o.y (pts.map (·.y)))))
        (some (diff (voronoi o.z (axisCenters o.z (pts.map (·.z)))))) (some [o.x, o.y, o.z]) layer material =
        .ok m := by
  unfold voxelize
  simp only
  rw [voronoi1d_axis, voronoi1d_axis, voronoi1d_axis]
  constructor
  · intro h
    split at h
    · cases h
    next hc =>
    split at h
    · cases h
    next h1 =>
    split at h
    · cases h
    next h2 =>
    split at h
    · cases h
    next h3 =>
    exact ⟨not_not.1 hc, h1, h2, h3, h⟩
  · rintro ⟨hc, h1, h2, h3, h⟩
    rw [if_neg (not_not.2 hc), if_neg h1, if_neg h2, if_neg h3]
    exact h

end

end Verif.Mesh
