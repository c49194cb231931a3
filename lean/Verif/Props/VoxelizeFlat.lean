import Verif.Lemmas.VoxelizeFlat
import Verif.Props.Voxelize

/-!
# C70: grids from any points, with one value on an axis or repeated
-/

namespace Verif.Mesh
open Verif.Py Verif.Model Verif.Spec Verif.Props

/-- Six points in a plane, with one value of y. -/
def sheet : List (P3 ℚ) :=
  [⟨1, 5, 1⟩, ⟨1, 5, 3⟩, ⟨4, 5, 1⟩, ⟨4, 5, 3⟩, ⟨9, 5, 1⟩, ⟨9, 5, 3⟩]

section
variable {K : Type} [Field K] [LinearOrder K]

/-- C70. For all points that are accepted, repeated or not and with any number of values on an axis:
the centres of the cells are all combinations of the coordinates, each once; an axis with one value
has the centres half a unit from the origin. -/
theorem C70_centers_all [IsStrictOrderedRing K] {pts : List (P3 K)} {o : P3 K} {layer : Bool} {material : Str}
    {m : Mesh K ℤ} (h : voxelize pts o layer material = .ok m) :
    ∃ cs, centers m = .ok cs ∧ cs.Nodup ∧ ∀ c, c ∈ cs ↔
      CentreOn o.x (pts.map (·.x)) c.x ∧ CentreOn o.y (pts.map (·.y)) c.y ∧
        CentreOn o.z (pts.map (·.z)) c.z := by
  obtain ⟨-, -, -, -, hg⟩ := voxelize_ok.1 h
  obtain ⟨cs, h1, h2, h3⟩ := grid_centers (axisCenters_nodup _ _) (axisCenters_nodup _ _) (axisCenters_nodup _ _) hg
  exact ⟨cs, h1, h2, fun c => by rw [h3, mem_axisCenters, mem_axisCenters, mem_axisCenters]⟩

/-- C70. The centres of the cells are exactly the points, for different points, if on every axis
there are at least two values or the only value is half a unit from the origin.

Missing: other origins for axes with one value (`C70_single_violated`), repeated points
(`C70_repeated_violated`). -/
theorem C70_centers_flat_partial [IsStrictOrderedRing K] {pts : List (P3 K)} {o : P3 K} {layer : Bool}
    {material : Str} {m : Mesh K ℤ} (hn : pts.Nodup) (h0 : pts ≠ []) (hx : Placed o.x (pts.map (·.x)))
    (hy : Placed o.y (pts.map (·.y))) (hz : Placed o.z (pts.map (·.z)))
    (h : voxelize pts o layer material = .ok m) :
    ∃ cs, centers m = .ok cs ∧ cs.Perm pts := by
  obtain ⟨hc, -⟩ := voxelize_ok.1 h
  obtain ⟨cs, h1, h2, h3⟩ := C70_centers_all h
  refine ⟨cs, h1, ?_⟩
  have key : ∀ (x0 : K) (l : List K), l ≠ [] → Placed x0 l → ∀ c, CentreOn x0 l c ↔ c ∈ l := by
    intro x0 l hl hp c
    unfold CentreOn
    rcases hp with hp | hp
    · tauto
    · by_cases ht : TwoValues l
      · tauto
      · obtain ⟨a, ha⟩ := List.exists_mem_of_ne_nil l hl
        constructor
        · rintro (⟨h, -⟩ | ⟨-, rfl⟩)
          · exact absurd h ht
          · rw [← hp a ha]; exact ha
        · exact fun h => .inr ⟨ht, hp c h⟩
  rw [List.perm_ext_iff_of_nodup h2 hn]
  intro c
  rw [h3, key _ _ (by simpa using h0) hx, key _ _ (by simpa using h0) hy, key _ _ (by simpa using h0) hz,
    (pts_perm hn hc).mem_iff, mem_gridPoints, mem_unique, mem_unique, mem_unique]

example : sheet.Nodup ∧ sheet ≠ [] ∧ TwoValues (sheet.map (·.x)) ∧ (∀ y ∈ sheet.map (·.y), y = (9 / 2 : ℚ) + 1 / 2) ∧
    TwoValues (sheet.map (·.z)) ∧ (voxelize sheet ⟨0, 9 / 2, 0⟩ true "dfalt".toList).toBool = true := by
  unfold TwoValues
  decide +kernel

/-- C70. Different points are accepted exactly if they are all combinations of their coordinates and
the origin is below all of them on the axes with two values or more. -/
theorem C70_accepts_all [IsStrictOrderedRing K] {pts : List (P3 K)} {o : P3 K} {layer : Bool} {material : Str}
    (hn : pts.Nodup) :
    (∃ m, voxelize pts o layer material = .ok m) ↔
      AllCombinations pts ∧ Below o.x (pts.map (·.x)) ∧ Below o.y (pts.map (·.y)) ∧
        Below o.z (pts.map (·.z)) := by
  have hcomb : (coordsX pts).length * (coordsY pts).length * (coordsZ pts).length = pts.length ↔ AllCombinations pts := by
    constructor
    · intro hc p hp q hq r hr
      rw [(pts_perm hn hc).mem_iff, mem_gridPoints, mem_unique, mem_unique, mem_unique]
      exact ⟨List.mem_map.2 ⟨p, hp, rfl⟩, List.mem_map.2 ⟨q, hq, rfl⟩, List.mem_map.2 ⟨r, hr, rfl⟩⟩
    · intro hc
      rw [← gridPoints_length]
      apply List.Perm.length_eq
      rw [List.perm_ext_iff_of_nodup _ hn]
      · intro p
        refine ⟨fun hp => ?_, fun hp => pts_subset pts hp⟩
        rw [mem_gridPoints, mem_unique, mem_unique, mem_unique, List.mem_map, List.mem_map, List.mem_map] at hp
        obtain ⟨⟨a, ha, ea⟩, ⟨b, hb, eb⟩, c, hc', ec⟩ := hp
        have := hc a ha b hb c hc'
        rwa [ea, eb, ec] at this
      · exact gridPoints_nodup (unique_nodup _) (unique_nodup _) (unique_nodup _)
  have hlow : ∀ (x0 : K) (l : List K), (¬ (TwoValues l ∧ ∃ x ∈ l, x ≤ x0)) ↔ Below x0 l := by
    intro x0 l
    unfold Below
    rw [not_and]
    refine imp_congr_right fun _ => ?_
    simp only [not_exists, not_and, not_le]
  obtain ⟨m, _, hm, _⟩ := C39_grid_3d (diff (voronoi o.x (axisCenters o.x (pts.map (·.x)))))
    (diff (voronoi o.y (axisCenters o.y (pts.map (·.y)))))
    (diff (voronoi o.z (axisCenters o.z (pts.map (·.z))))) (some o) layer material
  constructor
  · rintro ⟨m, h⟩
    obtain ⟨hc, h1, h2, h3, -⟩ := voxelize_ok.1 h
    exact ⟨hcomb.1 hc, (hlow _ _).1 h1, (hlow _ _).1 h2, (hlow _ _).1 h3⟩
  · rintro ⟨hc, h1, h2, h3⟩
    exact ⟨m, voxelize_ok.2 ⟨hcomb.2 hc, (hlow _ _).2 h1, (hlow _ _).2 h2, (hlow _ _).2 h3, hm⟩⟩

example : sheet.Nodup ∧ AllCombinations sheet ∧ (∀ x ∈ sheet.map (·.x), (0 : ℚ) < x) ∧
    ¬ TwoValues (sheet.map (·.y)) ∧ ¬ AllCombinations sheet.tail := by
  unfold AllCombinations TwoValues
  decide +kernel

/-- C70. An axis with one value is cut into one layer of width one. -/
theorem C70_single_width [IsStrictOrderedRing K] {pts : List (P3 K)} {o : P3 K} {layer : Bool} {material : Str}
    {m : Mesh K ℤ} (hy : ¬ TwoValues (pts.map (·.y))) (h : voxelize pts o layer material = .ok m) :
    ∃ dx dz, structuredGrid dx [1] (some dz) (some [o.x, o.y, o.z]) layer material = .ok m := by
  obtain ⟨-, -, -, -, hg⟩ := voxelize_ok.1 h
  have e : diff (voronoi o.y (axisCenters o.y (pts.map (·.y)))) = [1] := by
    unfold axisCenters
    rw [if_neg (fun h => hy (two_unique.1 h)), diff_voronoi_cons]
    have h2 : (2 : K) ≠ 0 := two_ne_zero
    simp only [voronoi, diff, List.tail_cons, List.zipWith_nil_left, List.cons.injEq, and_true]
    field_simp
    ring
  rw [e] at hg
  exact ⟨_, _, hg⟩

example : ¬ TwoValues (sheet.map (·.y)) ∧ (voxelize sheet ⟨0, 0, 0⟩ true "dfalt".toList).toBool = true := by
  unfold TwoValues
  decide +kernel

end

end Verif.Mesh
