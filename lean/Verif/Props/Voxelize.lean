import Verif.Spec.Voxelize
import Verif.Lemmas.Voxelize

/-!
# C70: grids from points
-/

namespace Verif.Mesh
open Verif.Py Verif.Model Verif.Spec Verif.Props

/-- Eight points, two values on each axis. -/
def cube : List (P3 ℚ) :=
  [⟨1, 1, 1⟩, ⟨1, 1, 3⟩, ⟨1, 2, 1⟩, ⟨1, 2, 3⟩, ⟨4, 1, 1⟩, ⟨4, 1, 3⟩, ⟨4, 2, 1⟩, ⟨4, 2, 3⟩]

/-- The points used below: the corners of a cube but one, and one point twice. -/
def repeated : List (P3 ℚ) :=
  [⟨1, 1, 1⟩, ⟨1, 1, 2⟩, ⟨1, 2, 1⟩, ⟨1, 2, 2⟩, ⟨2, 1, 1⟩, ⟨2, 1, 2⟩, ⟨2, 2, 1⟩, ⟨1, 1, 1⟩]

/-- Points on a line and the same points one further along the other axes. -/
def narrowing : List (P3 ℚ) :=
  [⟨1, 1, 1⟩, ⟨1, 1, 2⟩, ⟨1, 2, 1⟩, ⟨1, 2, 2⟩, ⟨3 / 2, 1, 1⟩, ⟨3 / 2, 1, 2⟩, ⟨3 / 2, 2, 1⟩, ⟨3 / 2, 2, 2⟩]

section
variable {K : Type} [Field K] [LinearOrder K]

/-- C70. The centres of the cells are exactly the points, for different points with at
least two values on every axis.

Missing: axes with one value (`C70_single_violated`), repeated points
(`C70_repeated_violated`). That cells do not overlap is not guaranteed
(`C70_overlap_violated`). -/
theorem C70_centers_partial [IsStrictOrderedRing K] {pts : List (P3 K)} {o : P3 K} {layer : Bool} {material : Str}
    {m : Mesh K ℤ} (hn : pts.Nodup) (hx : TwoValues (pts.map (·.x))) (hy : TwoValues (pts.map (·.y)))
    (hz : TwoValues (pts.map (·.z))) (h : voxelize pts o layer material = .ok m) :
    ∃ cs, centers m = .ok cs ∧ cs.Perm pts := by
  unfold voxelize at h
  simp only at h
  split at h
  · cases h
  next hc =>
  rw [not_not] at hc
  rw [voronoi1d_unique (two_unique.2 hx), voronoi1d_unique (two_unique.2 hy), voronoi1d_unique (two_unique.2 hz)] at h
  split at h
  · cases h
  split at h
  · cases h
  split at h
  · cases h
  rw [ok_bind, ok_bind, ok_bind] at h
  obtain ⟨m', cells, h1, h2, h3⟩ := C39_grid_3d (diff (voronoi o.x (coordsX pts))) (diff (voronoi o.y (coordsY pts)))
    (diff (voronoi o.z (coordsZ pts))) (some o) layer material
  rw [Option.map_some, h] at h1
  injection h1 with h1
  subst h1
  rw [diff_voronoi_length, diff_voronoi_length, diff_voronoi_length] at h3
  set X := coordsX pts
  set Y := coordsY pts
  set Z := coordsZ pts
  obtain ⟨l1, l2, l3⟩ := C39_listing layer X.length Y.length Z.length
  let g : ℕ × ℕ × ℕ → P3 K := fun v => ⟨X.getD v.1 0, Y.getD v.2.1 0, Z.getD v.2.2 0⟩
  have hcs : (cells.mapM fun c => do let ps ← rowsAt m.points c; .ok (mean ps)) =
      .ok ((listing layer X.length Y.length Z.length).map g) := by
    apply mapM_of_forall₂
    rw [List.forall₂_map_right_iff]
    refine List.Forall₂.flip (forall₂_mem h3 ?_)
    rintro ⟨i, j, k⟩ c hv hc
    obtain ⟨hi, hj, hk⟩ := (l3 i j k).1 hv
    change (do let ps ← rowsAt m.points c; .ok (mean ps)) = Except.ok (g (i, j, k))
    rw [rowsAt_of hc, ok_bind]
    congr 1
    apply mean_corners
    · simpa [g, hi, origin3] using voronoi_middle o.x X i hi
    · simpa [g, hj, origin3] using voronoi_middle o.y Y j hj
    · simpa [g, hk, origin3] using voronoi_middle o.z Z k hk
  refine ⟨(listing layer X.length Y.length Z.length).map g, ?_, ?_⟩
  · unfold centers
    rw [if_neg (by rw [h2]; simp), h2, List.mapM_cons, hcs, List.mapM_nil]
    change Except.ok _ = _
    rw [List.flatten_cons, List.flatten_nil, List.append_nil]
  · refine List.Perm.trans ?_ (pts_perm hn hc).symm
    rw [List.perm_ext_iff_of_nodup]
    · rintro ⟨x, y, z⟩
      rw [mem_gridPoints, List.mem_map]
      constructor
      · rintro ⟨⟨i, j, k⟩, hv, he⟩
        obtain ⟨hi, hj, hk⟩ := (l3 i j k).1 hv
        simp only [g, P3.mk.injEq] at he
        obtain ⟨rfl, rfl, rfl⟩ := he
        rw [getD_at hi, getD_at hj, getD_at hk]
        exact ⟨List.getElem_mem _, List.getElem_mem _, List.getElem_mem _⟩
      · rintro ⟨a, b, c⟩
        obtain ⟨i, hi, hx⟩ := List.getElem_of_mem a
        obtain ⟨j, hj, hy⟩ := List.getElem_of_mem b
        obtain ⟨k, hk, hz⟩ := List.getElem_of_mem c
        refine ⟨(i, j, k), (l3 i j k).2 ⟨hi, hj, hk⟩, ?_⟩
        simp only [g, P3.mk.injEq]
        exact ⟨(getD_at hi).trans hx, (getD_at hj).trans hy,
          (getD_at hk).trans hz⟩
    · refine List.Nodup.map_on ?_ l1
      rintro ⟨i, j, k⟩ hv ⟨i', j', k'⟩ hv' he
      obtain ⟨hi, hj, hk⟩ := (l3 i j k).1 hv
      obtain ⟨hi', hj', hk'⟩ := (l3 i' j' k').1 hv'
      simp only [g, P3.mk.injEq] at he
      have hX := unique_nodup (pts.map (·.x))
      have hY := unique_nodup (pts.map (·.y))
      have hZ := unique_nodup (pts.map (·.z))
      have e1 : i = i' := hX.getElem_inj_iff.1 (by simpa [hi, hi'] using he.1)
      have e2 : j = j' := hY.getElem_inj_iff.1 (by simpa [hj, hj'] using he.2.1)
      have e3 : k = k' := hZ.getElem_inj_iff.1 (by simpa [hk, hk'] using he.2.2)
      rw [e1, e2, e3]
    · exact (pts_perm hn hc).nodup_iff.1 hn

example : cube.Nodup ∧ TwoValues (cube.map (·.x)) ∧ TwoValues (cube.map (·.y)) ∧ TwoValues (cube.map (·.z)) ∧
    (voxelize cube ⟨0, 0, 0⟩ true "dfalt".toList).toBool = true := by
  unfold TwoValues
  decide +kernel

/-- C70. Different points with at least two values on every axis are accepted exactly if
they are all combinations of their coordinates and the origin is below all of them. -/
theorem C70_accepts {pts : List (P3 K)} {o : P3 K} {layer : Bool} {material : Str}
    (hn : pts.Nodup) (hx : TwoValues (pts.map (·.x))) (hy : TwoValues (pts.map (·.y)))
    (hz : TwoValues (pts.map (·.z))) :
    (∃ m, voxelize pts o layer material = .ok m) ↔
      AllCombinations pts ∧ ∀ p ∈ pts, o.x < p.x ∧ o.y < p.y ∧ o.z < p.z := by
  have hcomb : (coordsX pts).length * (coordsY pts).length * (coordsZ pts).length = pts.length ↔ AllCombinations pts := by
    constructor
    · intro hc p hp q hq r hr
      rw [(pts_perm hn hc).mem_iff, mem_gridPoints, mem_unique, mem_unique, mem_unique]
      exact ⟨List.mem_map.2 ⟨p, hp, rfl⟩, List.mem_map.2 ⟨q, hq, rfl⟩, List.mem_map.2 ⟨r, hr, rfl⟩⟩
    · intro hc
      rw [← gridPoints_length]
      apply List.Perm.length_eq
      rw [List.perm_ext_iff_of_nodup _ hn]
      · intro p
        refine ⟨fun hp => ?_, fun hp => pts_subset pts hp⟩
        rw [mem_gridPoints, mem_unique, mem_unique, mem_unique, List.mem_map, List.mem_map, List.mem_map] at hp
        obtain ⟨⟨a, ha, ea⟩, ⟨b, hb, eb⟩, c, hc', ec⟩ := hp
        have := hc a ha b hb c hc'
        rwa [ea, eb, ec] at this
      · exact gridPoints_nodup (unique_nodup _) (unique_nodup _) (unique_nodup _)
  have hlow : ∀ (f : P3 K → K) (x0 : K), (¬ ∃ x ∈ pts.map f, x ≤ x0) ↔ ∀ p ∈ pts, x0 < f p := by
    intro f x0
    simp only [List.mem_map, not_exists, not_and, not_le]
    exact ⟨fun h p hp => h _ ⟨p, hp, rfl⟩, by rintro h _ ⟨p, hp, rfl⟩; exact h p hp⟩
  unfold voxelize
  simp only
  rw [voronoi1d_unique (two_unique.2 hx), voronoi1d_unique (two_unique.2 hy), voronoi1d_unique (two_unique.2 hz)]
  constructor
  · rintro ⟨m, h⟩
    split at h
    · cases h
    next hc =>
    split at h
    · cases h
    next h1 =>
    split at h
    · cases h
    next h2 =>
    split at h
    · cases h
    next h3 =>
    exact ⟨hcomb.1 (not_not.1 hc), fun p hp => ⟨(hlow _ _).1 h1 p hp, (hlow _ _).1 h2 p hp, (hlow _ _).1 h3 p hp⟩⟩
  · rintro ⟨hc, hl⟩
    rw [if_neg (not_not.2 (hcomb.2 hc)), if_neg ((hlow _ _).2 fun p hp => (hl p hp).1),
      if_neg ((hlow _ _).2 fun p hp => (hl p hp).2.1), if_neg ((hlow _ _).2 fun p hp => (hl p hp).2.2),
      ok_bind, ok_bind, ok_bind]
    obtain ⟨m, _, h, _⟩ := C39_grid_3d (diff (voronoi o.x (coordsX pts))) (diff (voronoi o.y (coordsY pts)))
      (diff (voronoi o.z (coordsZ pts))) (some o) layer material
    exact ⟨m, h⟩

example : AllCombinations cube ∧ (∀ p ∈ cube, 0 < p.x ∧ 0 < p.y ∧ 0 < p.z) ∧ ¬ AllCombinations cube.tail := by
  unfold AllCombinations
  decide +kernel

/-- C70. Whatever is not accepted is refused with a ValueError. -/
theorem C70_refuses (pts : List (P3 K)) (o : P3 K) (layer : Bool) (material : Str)
    (h : ∀ m, voxelize pts o layer material ≠ .ok m) : voxelize pts o layer material = .error .valueError := by
  have hv : ∀ (l : List K) (x0 : K), voronoi1d (unique l) x0 = .error .valueError ∨ ∃ v, voronoi1d (unique l) x0 = .ok v := by
    intro l x0
    by_cases hl : 1 < (unique l).length
    · rw [voronoi1d_unique hl]
      split
      · exact .inl rfl
      · exact .inr ⟨_, rfl⟩
    · unfold voronoi1d
      rw [if_neg hl]
      exact .inr ⟨_, rfl⟩
  unfold voxelize at h ⊢
  simp only at h ⊢
  split
  · rfl
  next hc =>
  rcases hv (pts.map (·.x)) o.x with h1 | ⟨x, h1⟩
  · rw [h1]; rfl
  rcases hv (pts.map (·.y)) o.y with h2 | ⟨y, h2⟩
  · rw [h1, h2]; rfl
  rcases hv (pts.map (·.z)) o.z with h3 | ⟨z, h3⟩
  · rw [h1, h2, h3]; rfl
  rw [h1, h2, h3] at h
  obtain ⟨m, _, h', _⟩ := C39_grid_3d (diff x) (diff y) (diff z) (some o) layer material
  rw [if_neg hc] at h
  exact absurd h' (h m)

example : ∀ m, voxelize cube.tail ⟨0, 0, 0⟩ false "dfalt".toList ≠ .ok m := by
  intro m h
  have : (voxelize cube.tail ⟨0, 0, 0⟩ false "dfalt".toList).toBool = false := by decide +kernel
  rw [h] at this
  cases this

/-- C70. The planes of the grid: the first goes through the origin, and each coordinate
of the points is in the middle of two planes. `dx`, `dy` and `dz` are the widths between
the planes, see C39. -/
theorem C70_planes {pts : List (P3 K)} {o : P3 K} {layer : Bool} {material : Str}
    {m : Mesh K ℤ} (hx : TwoValues (pts.map (·.x))) (hy : TwoValues (pts.map (·.y)))
    (hz : TwoValues (pts.map (·.z))) (h : voxelize pts o layer material = .ok m) :
    ∃ xs ys zs dx dy dz, Coordinates (pts.map (·.x)) xs ∧ Coordinates (pts.map (·.y)) ys ∧
      Coordinates (pts.map (·.z)) zs ∧ Halfway o.x dx xs ∧ Halfway o.y dy ys ∧ Halfway o.z dz zs ∧
      structuredGrid dx dy (some dz) (some [o.x, o.y, o.z]) layer material = .ok m := by
  have hc : ∀ l : List K, Coordinates l (unique l) := fun l =>
    ⟨List.pairwise_insertionSort _ _ |>.imp_of_mem (S := fun a b => a ≤ b) (fun _ _ h => h) |> fun hs =>
      (hs.and (unique_nodup l)).imp fun h => lt_of_le_of_ne h.1 h.2, fun x => mem_unique l x⟩
  have hh : ∀ (x0 : K) (l : List K), Halfway x0 (diff (voronoi x0 l)) l := fun x0 l =>
    ⟨diff_voronoi_length x0 l, fun i hi => voronoi_middle x0 l i hi⟩
  unfold voxelize at h
  simp only at h
  split at h
  · cases h
  rw [voronoi1d_unique (two_unique.2 hx), voronoi1d_unique (two_unique.2 hy), voronoi1d_unique (two_unique.2 hz)] at h
  split at h
  · cases h
  split at h
  · cases h
  split at h
  · cases h
  exact ⟨_, _, _, _, _, _, hc _, hc _, hc _, hh _ _, hh _ _, hh _ _, h⟩

example : cube.Nodup ∧ TwoValues (cube.map (·.x)) ∧ TwoValues (cube.map (·.y)) ∧ TwoValues (cube.map (·.z)) ∧
    (voxelize cube ⟨0, 0, 0⟩ true "dfalt".toList).toBool = true := by
  unfold TwoValues
  decide +kernel

/-- C70. With one value on an axis the cell goes from the origin one unit far, wherever
the point is. -/
theorem C70_single_violated (p q o : P3 K) (layer : Bool) (material : Str) :
    voxelize [p] o layer material = voxelize [q] o layer material := by
  rfl

/-- C70. Repeated points let points pass which are not all combinations. -/
theorem C70_repeated_violated :
    ¬ AllCombinations repeated ∧ ∃ m, voxelize repeated ⟨0, 0, 0⟩ false "dfalt".toList = .ok m := by
  refine ⟨fun h => ?_, ?_⟩
  · have := h ⟨2, 2, 1⟩ (by simp [repeated]) ⟨2, 2, 1⟩ (by simp [repeated]) ⟨1, 2, 2⟩ (by simp [repeated])
    simp [repeated] at this
  · cases hv : voxelize repeated ⟨0, 0, 0⟩ false "dfalt".toList with
    | ok m => exact ⟨m, rfl⟩
    | error e =>
      have : (voxelize repeated ⟨0, 0, 0⟩ false "dfalt".toList).toBool = true := by decide +kernel
      rw [hv] at this
      cases this

/-- C70. Cells may overlap: here the planes along x are at 0, 2 and 1, so that the cells
around the points with x = 3/2 are within those around the points with x = 1. -/
theorem C70_overlap_violated :
    narrowing.Nodup ∧ AllCombinations narrowing ∧ (∀ p ∈ narrowing, 0 < p.x ∧ 0 < p.y ∧ 0 < p.z) ∧
    ∃ m, voxelize narrowing ⟨0, 0, 0⟩ false "dfalt".toList = .ok m ∧ unique (m.points.map (·.x)) = [0, 1, 2] ∧
      ∃ b ∈ m.cells, ∃ c ∈ b.data, ∃ d ∈ b.data,
        (c.map fun i => (m.points[i]?).map (·.x)) = [some 0, some 2, some 2, some 0, some 0, some 2, some 2, some 0] ∧
        (d.map fun i => (m.points[i]?).map (·.x)) = [some 2, some 1, some 1, some 2, some 2, some 1, some 1, some 2] ∧
        (c.map fun i => (m.points[i]?).map (·.y)) = (d.map fun i => (m.points[i]?).map (·.y)) ∧
        (c.map fun i => (m.points[i]?).map (·.z)) = (d.map fun i => (m.points[i]?).map (·.z)) := by
  refine ⟨by decide +kernel, by unfold AllCombinations; decide +kernel, by decide +kernel, ?_⟩
  have key : (match voxelize narrowing ⟨0, 0, 0⟩ false "dfalt".toList with
    | .ok m => decide (unique (m.points.map (·.x)) = [0, 1, 2] ∧
      ∃ b ∈ m.cells, ∃ c ∈ b.data, ∃ d ∈ b.data,
        (c.map fun i => (m.points[i]?).map (·.x)) = [some 0, some 2, some 2, some 0, some 0, some 2, some 2, some 0] ∧
        (d.map fun i => (m.points[i]?).map (·.x)) = [some 2, some 1, some 1, some 2, some 2, some 1, some 1, some 2] ∧
        (c.map fun i => (m.points[i]?).map (·.y)) = (d.map fun i => (m.points[i]?).map (·.y)) ∧
        (c.map fun i => (m.points[i]?).map (·.z)) = (d.map fun i => (m.points[i]?).map (·.z)))
    | .error _ => false) = true := by decide +kernel
  split at key
  next m hm => exact ⟨m, hm, of_decide_eq_true key⟩
  · cases key

end

end Verif.Mesh
