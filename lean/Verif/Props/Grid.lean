import Verif.Lemmas.Volume
import Mathlib.Analysis.Real.Pi.Bounds
import Mathlib.Tactic.IntervalCases

/-!
# Structured and cylindrical grids (C39-C41)
-/

namespace Verif.Props
open Verif.Py Verif.Model Verif.Spec Verif.Mesh

section
variable {K : Type} [Field K] [LinearOrder K]

/-! ## C39: cells of structured grids -/

/-- The origin of a 3D grid. -/
def origin3 (dz : List K) : Option (P3 K) → P3 K
  | some o => o
  | none => ⟨0, 0, -dz.sum⟩

/-- C39. A 3D grid is one block of hexahedra, listed in the stated order, each with its
corners at the planes given by the sizes. By default the top is at zero. -/
theorem C39_grid_3d (dx dy dz : List K) (o : Option (P3 K)) (layer : Bool) (material : Str) :
    ∃ m cells, structuredGrid dx dy (some dz) (o.map fun p => [p.x, p.y, p.z]) layer material = .ok m ∧
      m.cells = [⟨.hexahedron, cells⟩] ∧
      List.Forall₂ (fun v c => Vertices m.points c (corners dx dy dz (origin3 dz o) v))
        (listing layer dx.length dy.length dz.length) cells := by
  have key : ∀ q : P3 K, List.Forall₂ (fun v c => Vertices
      (((grid3 (if layer then .F else .C) (edges dx) (edges dy) (edges dz)).map
        fun p => (⟨p.1, p.2.1, p.2.2⟩ : P3 K)).map fun p => (⟨p.x + q.x, p.y + q.y, p.z + q.z⟩ : P3 K)) c
        (corners dx dy dz q v))
      (listing layer dx.length dy.length dz.length)
      ((listing layer dx.length dy.length dz.length).map fun v => (meshVertices3 v).map
          (index3 (if layer then .F else .C) (dx.length + 1) (dy.length + 1) (dz.length + 1))) := by
    intro q
    rw [List.forall₂_map_right_iff, List.forall₂_same]
    rintro ⟨i, j, k⟩ hv
    obtain ⟨hi, hj, hk⟩ := mem_listing.1 hv
    unfold Vertices
    simp only [meshVertices3, corners, List.map_cons, List.map_nil, List.forall₂_cons]
    refine ⟨?_, ?_, ?_, ?_, ?_, ?_, ?_, ?_, .nil⟩ <;> exact point_get _ _ _ _ _ _ _ _ (by omega) (by omega) (by omega)
  unfold structuredGrid
  simp only
  rw [grid3d_ok]
  cases o with
  | none => exact ⟨_, _, rfl, rfl, key ⟨0, 0, -dz.sum⟩⟩
  | some p => exact ⟨_, _, rfl, rfl, key p⟩

/-- C39. Every cell of a 3D grid is listed exactly once, so there are as many cells as
triples. -/
theorem C39_listing (layer : Bool) (nx ny nz : ℕ) :
    (listing layer nx ny nz).Nodup ∧ (listing layer nx ny nz).length = nx * ny * nz ∧
      ∀ i j k, (i, j, k) ∈ listing layer nx ny nz ↔ i < nx ∧ j < ny ∧ k < nz := by
  refine ⟨?_, ?_, fun i j k => mem_listing⟩
  · have hr : ∀ n : ℕ, (List.range n).reverse.Nodup := fun n => List.nodup_reverse.2 List.nodup_range
    cases layer
    · simp only [listing, Bool.false_eq_true, if_false]
      rw [List.nodup_flatMap]
      refine ⟨fun i _ => ?_, ?_⟩
      · rw [List.nodup_flatMap]
        refine ⟨fun j _ => (hr nz).map fun a b h => by simpa using h, ?_⟩
        refine List.nodup_range.imp ?_
        intro a b hab x hx hy
        simp only [List.mem_map] at hx hy
        obtain ⟨_, _, rfl⟩ := hx
        obtain ⟨_, _, h⟩ := hy
        simp only [Prod.mk.injEq] at h
        exact hab h.2.1.symm
      · refine List.nodup_range.imp ?_
        intro a b hab x hx hy
        simp only [List.mem_flatMap, List.mem_map] at hx hy
        obtain ⟨_, _, _, _, rfl⟩ := hx
        obtain ⟨_, _, _, _, h⟩ := hy
        simp only [Prod.mk.injEq] at h
        exact hab h.1.symm
    · simp only [listing, if_true]
      rw [List.nodup_flatMap]
      refine ⟨fun i _ => ?_, ?_⟩
      · rw [List.nodup_flatMap]
        refine ⟨fun j _ => List.nodup_range.map fun a b h => by simpa using h, ?_⟩
        refine List.nodup_range.imp ?_
        intro a b hab x hx hy
        simp only [List.mem_map] at hx hy
        obtain ⟨_, _, rfl⟩ := hx
        obtain ⟨_, _, h⟩ := hy
        simp only [Prod.mk.injEq] at h
        exact hab h.2.1.symm
      · refine (hr nz).imp ?_
        intro a b hab x hx hy
        simp only [List.mem_flatMap, List.mem_map] at hx hy
        obtain ⟨_, _, _, _, rfl⟩ := hx
        obtain ⟨_, _, _, _, h⟩ := hy
        simp only [Prod.mk.injEq] at h
        exact hab h.2.2.symm
  · cases layer
    · simp only [listing, Bool.false_eq_true, if_false]
      rw [length_flatMap_const (n := ny * nz)]
      · rw [List.length_range]; ring
      · intro x _
        rw [length_flatMap_const (n := nz) (by simp), List.length_range]
    · simp only [listing, if_true]
      rw [length_flatMap_const (n := ny * nx)]
      · rw [List.length_reverse, List.length_range]; ring
      · intro x _
        rw [length_flatMap_const (n := nx) (by simp), List.length_range]

/-- C39. A 2D grid is one block of quads in the plane `z = 0`. -/
theorem C39_grid_2d (dx dy : List K) (o : Option (K × K)) (layer : Bool) (material : Str) :
    ∃ m cells, structuredGrid dx dy none (o.map fun p => [p.1, p.2]) layer material = .ok m ∧
      m.cells = [⟨.quad, cells⟩] ∧
      List.Forall₂ (fun v c => Vertices m.points c (corners2 dx dy (o.getD (0, 0)) v))
        (listing2 layer dx.length dy.length) cells := by
  have key : ∀ q : K × K, List.Forall₂ (fun v c => Vertices
      ((grid2 (if layer then .F else .C) (edges dx) (edges dy)).map
        fun p => (⟨p.1 + q.1, p.2 + q.2, 0⟩ : P3 K)) c (corners2 dx dy q v))
      (listing2 layer dx.length dy.length)
      ((listing2 layer dx.length dy.length).map fun v => (meshVertices2 v).map
          (index2 (if layer then .F else .C) (dx.length + 1) (dy.length + 1))) := by
    intro q
    rw [List.forall₂_map_right_iff, List.forall₂_same]
    rintro ⟨i, j⟩ hv
    have hv : i < dx.length ∧ j < dy.length := by
      cases layer <;> simp [listing2] at hv <;> tauto
    unfold Vertices
    simp only [meshVertices2, corners2, List.map_cons, List.map_nil, List.forall₂_cons]
    refine ⟨?_, ?_, ?_, ?_, .nil⟩ <;> exact point_get2 _ _ _ _ _ _ (by omega) (by omega)
  unfold structuredGrid
  simp only
  rw [grid2d_ok]
  cases o with
  | none => exact ⟨_, _, rfl, rfl, key (0, 0)⟩
  | some p => exact ⟨_, _, rfl, rfl, key p⟩

/-- C39. The points of a 3D grid are the crossings of its planes and nothing else. -/
theorem C39_points (dx dy dz : List K) (o : Option (P3 K)) (layer : Bool) (material : Str) (m : Mesh K ℤ)
    (h : structuredGrid dx dy (some dz) (o.map fun p => [p.x, p.y, p.z]) layer material = .ok m) :
    m.points.length = (dx.length + 1) * (dy.length + 1) * (dz.length + 1) ∧
      ∀ p, p ∈ m.points ↔ ∃ a b c, a ≤ dx.length ∧ b ≤ dy.length ∧ c ≤ dz.length ∧
        p = corner dx dy dz (origin3 dz o) a b c := by
  have key : ∀ q : P3 K, let pts := (((grid3 (if layer then .F else .C) (edges dx) (edges dy) (edges dz)).map
        fun p => (⟨p.1, p.2.1, p.2.2⟩ : P3 K)).map fun p => (⟨p.x + q.x, p.y + q.y, p.z + q.z⟩ : P3 K))
      pts.length = (dx.length + 1) * (dy.length + 1) * (dz.length + 1) ∧
      ∀ p, p ∈ pts ↔ ∃ a b c, a ≤ dx.length ∧ b ≤ dy.length ∧ c ≤ dz.length ∧
        p = corner dx dy dz q a b c := by
    intro q
    refine ⟨?_, fun p => ⟨fun hp => ?_, ?_⟩⟩
    · simp only [List.length_map]
      cases layer
      · simp only [Bool.false_eq_true, if_false, grid3]
        rw [length_flatMap_const (n := (dy.length + 1) * (dz.length + 1)), edges_length]
        · ring
        · intro x _
          rw [length_flatMap_const (n := dz.length + 1), edges_length]
          simp [edges_length]
      · simp only [if_true, grid3]
        rw [length_flatMap_const (n := (dy.length + 1) * (dx.length + 1)), edges_length]
        · ring
        · intro x _
          rw [length_flatMap_const (n := dx.length + 1), edges_length]
          simp [edges_length]
    · simp only [List.map_map, List.mem_map, Function.comp] at hp
      obtain ⟨⟨x, y, z⟩, hm, rfl⟩ := hp
      have hm : x ∈ edges dx ∧ y ∈ edges dy ∧ z ∈ edges dz := by
        cases layer <;> simp [grid3] at hm <;> tauto
      obtain ⟨⟨a, ha⟩, ⟨b, hb⟩, ⟨c, hc⟩⟩ := And.imp List.getElem?_of_mem
        (And.imp List.getElem?_of_mem List.getElem?_of_mem) hm
      have la := lt_of_get ha
      have lb := lt_of_get hb
      have lc := lt_of_get hc
      rw [edges_length] at la lb lc
      rw [edges_get _ _ (by omega)] at ha hb hc
      cases ha; cases hb; cases hc
      exact ⟨a, b, c, by omega, by omega, by omega, by simp [corner, add_comm]⟩
    · rintro ⟨a, b, c, ha, hb, hc, rfl⟩
      exact List.mem_of_getElem? (point_get (if layer then .F else .C) dx dy dz q a b c ha hb hc)
  unfold structuredGrid at h
  simp only at h
  rw [grid3d_ok] at h
  cases o with
  | none => cases h; exact key ⟨0, 0, -dz.sum⟩
  | some p => cases h; exact key p

/-- C39. An origin with a wrong number of coordinates is refused. -/
theorem C39_origin (dx dy : List K) (dz : Option (List K)) (o : List K) (layer : Bool) (material : Str)
    (h : o.length ≠ if dz.isSome then 3 else 2) :
    structuredGrid dx dy dz (some o) layer material = .error .valueError := by
  unfold structuredGrid
  cases dz with
  | none =>
    simp only [Option.isSome_none, Bool.false_eq_true, if_false] at h
    simp only
    rw [grid2d_ok]
    match o with
    | [] => rfl
    | [_] => rfl
    | [_, _] => exact absurd rfl h
    | _ :: _ :: _ :: _ => rfl
  | some dz =>
    simp only [Option.isSome_some, if_true] at h
    simp only
    rw [grid3d_ok]
    match o with
    | [] => rfl
    | [_] => rfl
    | [_, _] => rfl
    | [_, _, _] => exact absurd rfl h
    | _ :: _ :: _ :: _ :: _ => rfl

end

example : (structuredGrid [(1 : ℚ), 2] [1] (some [1, 1]) none false "rock".toList).map
    (fun m => (m.cells.map (·.data), m.points.length)) =
    .ok ([[[1, 7, 10, 4, 2, 8, 11, 5], [0, 6, 9, 3, 1, 7, 10, 4], [7, 13, 16, 10, 8, 14, 17, 11],
      [6, 12, 15, 9, 7, 13, 16, 10]]], 18) := by decide +kernel
example : listing true 2 1 2 = [(0, 0, 1), (1, 0, 1), (0, 0, 0), (1, 0, 0)] := by decide
example : listing false 2 1 2 = [(0, 0, 1), (0, 0, 0), (1, 0, 1), (1, 0, 0)] := by decide
example : (structuredGrid [(1 : ℚ)] [1] (some [1]) (some [0, 0]) false "rock".toList) =
    .error .valueError := by decide +kernel

/-! ## C40: volumes -/

section
variable {K : Type} [Field K] [LinearOrder K] [IsStrictOrderedRing K]

/-- C40. Volumes of the cells that are affine images of the standard ones: tetrahedra,
pyramids over parallelograms, prisms and parallelepipeds. -/
theorem C40_affine (pts : List (P3 K)) (cell : List ℕ) (o a b c : P3 K) :
    (Vertices pts cell [o, o.add a, o.add b, o.add c] →
      (tetras .tetra >>= fun ts => cellVolume pts ts cell) = .ok (|det3 a b c| / 6)) ∧
    (Vertices pts cell [o, o.add a, (o.add a).add b, o.add b, o.add c] →
      (tetras .pyramid >>= fun ts => cellVolume pts ts cell) = .ok (|det3 a b c| / 3)) ∧
    (Vertices pts cell [o, o.add a, o.add b, o.add c, (o.add a).add c, (o.add b).add c] →
      (tetras .wedge >>= fun ts => cellVolume pts ts cell) = .ok (|det3 a b c| / 2)) ∧
    (Vertices pts cell [o, o.add a, (o.add a).add b, o.add b,
        o.add c, (o.add a).add c, ((o.add a).add b).add c, (o.add b).add c] →
      (tetras .hexahedron >>= fun ts => cellVolume pts ts cell) = .ok |det3 a b c|) :=
  ⟨fun h => tetra_det o a b c h, fun h => pyramid_apex o a b c h, fun h => wedge_prism o a b c h,
    fun h => hex_parallelepiped o a b c h⟩

/-- C40. The volume of every cell of a structured grid is the product of its sizes. -/
theorem C40_volumes (dx dy dz : List K) (o : Option (P3 K)) (layer : Bool) (material : Str) (m : Mesh K ℤ)
    (hx : dx ≠ []) (hy : dy ≠ []) (hz : dz ≠ [])
    (h : structuredGrid dx dy (some dz) (o.map fun p => [p.x, p.y, p.z]) layer material = .ok m) :
    ∃ vs, volumes m = .ok vs ∧
      List.Forall₂ (fun v vol => ∃ x y z, dx[v.1]? = some x ∧ dy[v.2.1]? = some y ∧ dz[v.2.2]? = some z ∧
        vol = |x * y * z|) (listing layer dx.length dy.length dz.length) vs := by
  obtain ⟨m', cells, h1, h2, h3⟩ := C39_grid_3d dx dy dz o layer material
  rw [h] at h1
  injection h1 with h1
  subst h1
  have hne : cells ≠ [] := by
    rintro rfl
    have := h3.length_eq
    rw [(C39_listing layer _ _ _).2.1] at this
    simp [hx, hy, hz] at this
  have hb : ∀ ts, tetras .hexahedron = .ok ts → ∃ vs, cells.mapM (cellVolume m.points ts) = .ok vs ∧
      List.Forall₂ (fun v vol => ∃ x y z, dx[v.1]? = some x ∧ dy[v.2.1]? = some y ∧ dz[v.2.2]? = some z ∧
        vol = |x * y * z|) (listing layer dx.length dy.length dz.length) vs := by
    intro ts hts
    cases hts
    have hm : ∀ v ∈ listing layer dx.length dy.length dz.length,
        v.1 < dx.length ∧ v.2.1 < dy.length ∧ v.2.2 < dz.length := fun v hv => mem_listing.1 hv
    generalize listing layer dx.length dy.length dz.length = l at h3 hm
    clear hne h2
    induction h3 with
    | nil => exact ⟨[], rfl, .nil⟩
    | @cons v c l cs hv _ ih =>
      obtain ⟨vs, e1, e2⟩ := ih fun v hv => hm v (List.mem_cons_of_mem _ hv)
      obtain ⟨g1, g2, g3⟩ := hm v List.mem_cons_self
      obtain ⟨i, j, k⟩ := v
      have p1 := plane_succ dx i _ (List.getElem?_eq_getElem g1)
      have p2 := plane_succ dy j _ (List.getElem?_eq_getElem g2)
      have p3 := plane_succ dz k _ (List.getElem?_eq_getElem g3)
      have := hex_parallelepiped (pts := m.points) (cell := c) (corner dx dy dz (origin3 dz o) i j k)
        ⟨dx[i], 0, 0⟩ ⟨0, dy[j], 0⟩ ⟨0, 0, dz[k]⟩ (by
          simp only [corners, corner, p1, p2, p3] at hv
          simp only [P3.add, corner, add_zero, add_assoc] at hv ⊢
          exact hv)
      have e : det3 (⟨dx[i], 0, 0⟩ : P3 K) ⟨0, dy[j], 0⟩ ⟨0, 0, dz[k]⟩ = dx[i] * dy[j] * dz[k] := by
        simp only [det3]; ring
      rw [e] at this
      refine ⟨|dx[i] * dy[j] * dz[k]| :: vs, ?_, .cons ⟨_, _, _, List.getElem?_eq_getElem g1,
        List.getElem?_eq_getElem g2, List.getElem?_eq_getElem g3, rfl⟩ e2⟩
      rw [List.mapM_cons, this, ok_bind, e1]
      rfl
  obtain ⟨vs, e1, e2⟩ := hb _ rfl
  refine ⟨vs, ?_, e2⟩
  unfold volumes
  rw [h2, if_neg (by simp)]
  simp only [List.mapM_cons, List.mapM_nil, if_neg hne]
  simp only [tetras, ok_bind] at e1 ⊢
  rw [e1]
  simp only [ok_bind, pure_bind]
  show Except.ok [vs].flatten = _
  simp

/-- C40. With positive sizes the volumes are positive and add up to the volume of the
whole grid. -/
theorem C40_sum (dx dy dz : List K) (o : Option (P3 K)) (layer : Bool) (material : Str) (m : Mesh K ℤ)
    (vs : List K) (hx : dx ≠ []) (hy : dy ≠ []) (hz : dz ≠ [])
    (px : ∀ x ∈ dx, 0 < x) (py : ∀ y ∈ dy, 0 < y) (pz : ∀ z ∈ dz, 0 < z)
    (h : structuredGrid dx dy (some dz) (o.map fun p => [p.x, p.y, p.z]) layer material = .ok m)
    (hv : volumes m = .ok vs) : (∀ v ∈ vs, 0 < v) ∧ vs.sum = dx.sum * dy.sum * dz.sum := by
  obtain ⟨vs', h1, h2⟩ := C40_volumes dx dy dz o layer material m hx hy hz h
  rw [hv] at h1
  injection h1 with h1
  subst h1
  have pos : ∀ {x y z : K} {i j k : ℕ}, dx[i]? = some x → dy[j]? = some y → dz[k]? = some z →
      0 < x * y * z := fun hx hy hz => by
    have := px _ (List.mem_of_getElem? hx)
    have := py _ (List.mem_of_getElem? hy)
    have := pz _ (List.mem_of_getElem? hz)
    positivity
  have e : vs = (listing layer dx.length dy.length dz.length).map fun v =>
      dx.getD v.1 0 * dy.getD v.2.1 0 * dz.getD v.2.2 0 := by
    clear hv h
    generalize listing layer dx.length dy.length dz.length = l at h2
    induction h2 with
    | nil => rfl
    | cons a _ ih =>
      obtain ⟨x, y, z, a1, a2, a3, rfl⟩ := a
      rw [List.map_cons, ← ih, getD_get _ _ _ a1, getD_get _ _ _ a2, getD_get _ _ _ a3,
        abs_of_pos (pos a1 a2 a3)]
  refine ⟨fun w hw => ?_, ?_⟩
  · clear e hv h
    generalize listing layer dx.length dy.length dz.length = l at h2
    induction h2 with
    | nil => simp at hw
    | cons a _ ih =>
      rcases List.mem_cons.1 hw with rfl | hw
      · obtain ⟨x, y, z, a1, a2, a3, rfl⟩ := a
        rw [abs_of_pos (pos a1 a2 a3)]
        exact pos a1 a2 a3
      · exact ih hw
  · rw [e, sum_listing layer _ _ _ (fun i => dx.getD i 0) (fun i => dy.getD i 0) (fun i => dz.getD i 0),
      map_range_getD, map_range_getD, map_range_getD]

end

example : ((structuredGrid [(1 : ℚ), 2] [3] (some [1, 4]) none false "rock".toList) >>= volumes) =
    .ok [12, 3, 24, 6] := by decide +kernel
example : ((structuredGrid [(1 : ℚ), 2] [3] (some [1, 4]) none true "rock".toList) >>= volumes) =
    .ok [12, 24, 3, 6] := by decide +kernel

/-! ## C41: cylindrical grids -/

section
variable {K : Type} [Field K] [LinearOrder K]

/-- C41. A cylindrical grid is a structured grid of one row with the increments of the
radius, listed like every structured grid; its top is at zero by default. -/
theorem C41_cells (dr dz : List K) (oz : Option K) (layer : Bool) (material : Str) (m : CylMesh K)
    (h : cylindricGrid dr dz oz layer material = .ok m) :
    ((∀ r ∈ dr, 0 < r) ∧ ∀ z ∈ dz, 0 < z) ∧
    ∃ cells, m.mesh.cells = [⟨.hexahedron, cells⟩] ∧
      List.Forall₂ (fun v c => Vertices m.mesh.points c
        (corners dr [1] dz ⟨0, -(1 / 2), oz.getD (-dz.sum)⟩ v))
        (listing layer dr.length 1 dz.length) cells := by
  unfold cylindricGrid at h
  by_cases h1 : ∀ r ∈ dr, 0 < r
  · rw [if_neg (not_not.2 h1)] at h
    by_cases h2 : ∀ z ∈ dz, 0 < z
    · rw [if_neg (not_not.2 h2)] at h
      refine ⟨⟨h1, h2⟩, ?_⟩
      obtain ⟨m', cells, g1, g2, g3⟩ := C39_grid_3d dr [1] dz
        (some ⟨0, -(1 / 2), oz.getD (-dz.sum)⟩) layer material
      cases oz <;>
      · simp only [Option.map_some, Option.getD] at g1 h
        rw [g1] at h
        cases h
        exact ⟨cells, g2, g3⟩
    · rw [if_pos h2] at h; cases h
  · rw [if_pos h1] at h; cases h

/-- C41. Sizes that are not positive are refused. -/
theorem C41_rejects (dr dz : List K) (oz : Option K) (layer : Bool) (material : Str)
    (h : ¬ ((∀ r ∈ dr, 0 < r) ∧ ∀ z ∈ dz, 0 < z)) :
    cylindricGrid dr dz oz layer material = .error .valueError := by
  unfold cylindricGrid
  by_cases h1 : ∀ r ∈ dr, 0 < r
  · rw [if_neg (not_not.2 h1), if_pos fun h2 => h ⟨h1, h2⟩]
  · rw [if_pos h1]

theorem cyl_fields {dr dz : List K} {oz : Option K} {layer : Bool} {material : Str} {m : CylMesh K}
    (h : cylindricGrid dr dz oz layer material = .ok m) :
    m.dr = dr ∧ m.dz = dz.reverse ∧ m.layer = layer := by
  unfold cylindricGrid at h
  by_cases h1 : ∀ r ∈ dr, 0 < r
  · rw [if_neg (not_not.2 h1)] at h
    by_cases h2 : ∀ z ∈ dz, 0 < z
    · rw [if_neg (not_not.2 h2), bind_eq_ok] at h
      obtain ⟨_, _, h⟩ := h
      cases h
      exact ⟨rfl, rfl, rfl⟩
    · rw [if_pos h2] at h; cases h
  · rw [if_pos h1] at h; cases h

/-- Ring areas and heights of a cylindrical grid, layer by layer. -/
theorem areasHeights_ok (pi : K) {m : CylMesh K} {dz : List K} (h0 : m.dr ≠ []) (hz : m.dz = dz.reverse) :
    areasHeights pi m = .ok
      ((listing true m.dr.length 1 dz.length).map fun v =>
          (plane m.dr (v.1 + 1) ^ 2 - plane m.dr v.1 ^ 2) * pi,
        (listing true m.dr.length 1 dz.length).map fun v => dz.getD v.2.2 0) := by
  unfold areasHeights
  simp only
  have hne : (cumsum m.dr).map (· ^ 2) ≠ [] := by
    intro h
    have := congrArg List.length h
    rw [List.length_map, cumsum_length] at this
    exact h0 (List.length_eq_zero_iff.1 this)
  obtain ⟨r0, rest, he⟩ := List.exists_cons_of_ne_nil hne
  obtain ⟨g1, g2⟩ := rings_get he
  rw [he]
  simp only
  rw [hz, tile_listing _ _ g1, heights_listing, List.length_reverse, List.map_map]
  congr 2
  refine List.map_congr_left fun v hv => ?_
  simp only [Function.comp]
  rw [g2 v.1 (mem_listing.1 (show (v.1, v.2.1, v.2.2) ∈ _ from hv)).1]

/-- C41. The volumes, in the order of the cells: pi times the difference of the squared
radii times the height. -/
theorem C41_volumes (pi : K) (dr dz : List K) (oz : Option K) (layer : Bool) (material : Str)
    (m : CylMesh K) (h0 : dr ≠ []) (h : cylindricGrid dr dz oz layer material = .ok m) :
    ∃ vs, cylVolumes pi m = .ok vs ∧
      List.Forall₂ (fun v vol => ∃ z, dz[v.2.2]? = some z ∧
        vol = pi * (plane dr (v.1 + 1) ^ 2 - plane dr v.1 ^ 2) * z) (listing layer dr.length 1 dz.length) vs := by
  obtain ⟨e1, e2, e3⟩ := cyl_fields h
  subst e1 e3
  refine ⟨(listing m.layer m.dr.length 1 dz.length).map fun v =>
    (plane m.dr (v.1 + 1) ^ 2 - plane m.dr v.1 ^ 2) * pi * dz.getD v.2.2 0, ?_, ?_⟩
  · unfold cylVolumes
    rw [areasHeights_ok pi h0 e2, ok_bind]
    simp only
    rw [List.zipWith_map, List.zipWith_self, e2, List.length_reverse]
    cases m.layer
    · rw [if_neg (by simp), ravelF_listing]
    · rw [if_pos rfl]
  · rw [List.forall₂_map_right_iff, List.forall₂_same]
    intro v hv
    obtain ⟨-, -, hk⟩ := mem_listing.1 (show (v.1, v.2.1, v.2.2) ∈ _ from hv)
    refine ⟨dz[v.2.2], List.getElem?_eq_getElem hk, ?_⟩
    rw [getD_get _ _ _ (List.getElem?_eq_getElem hk)]
    ring

/-- C41. The volumes add up to that of the cylinder. -/
theorem C41_sum (pi : K) (dr dz : List K) (oz : Option K) (layer : Bool) (material : Str)
    (m : CylMesh K) (vs : List K) (h0 : dr ≠ []) (h : cylindricGrid dr dz oz layer material = .ok m)
    (hv : cylVolumes pi m = .ok vs) : vs.sum = pi * dr.sum ^ 2 * dz.sum := by
  obtain ⟨vs', h1, h2⟩ := C41_volumes pi dr dz oz layer material m h0 h
  rw [hv] at h1
  injection h1 with h1
  subst h1
  have e : vs = (listing layer dr.length 1 dz.length).map fun v =>
      (plane dr (v.1 + 1) ^ 2 - plane dr v.1 ^ 2) * (fun _ => pi) v.2.1 * dz.getD v.2.2 0 := by
    clear hv h
    generalize listing layer dr.length 1 dz.length = l at h2
    induction h2 with
    | nil => rfl
    | cons a _ ih =>
      obtain ⟨z, a1, rfl⟩ := a
      rw [List.map_cons, ← ih, getD_get _ _ _ a1, mul_comm pi]
  rw [e, sum_listing layer _ _ _ (fun i => plane dr (i + 1) ^ 2 - plane dr i ^ 2) (fun _ => pi)
    (fun k => dz.getD k 0), map_range_getD, sum_telescope (fun i => plane dr i ^ 2)]
  have : plane dr dr.length = dr.sum := by unfold plane; rw [List.take_length]
  have p0 : plane dr 0 = 0 := by simp [plane]
  rw [this, p0]
  simp only [List.range_one, List.map_cons, List.map_nil, List.sum_cons, List.sum_nil]
  ring

/-- C41. The face areas, in the order of the cells and of the faces of a hexahedron:
bottom, top, front, outer, back, inner. -/
theorem C41_face_areas (pi : K) (dr dz : List K) (oz : Option K) (layer : Bool) (material : Str)
    (m : CylMesh K) (h0 : dr ≠ []) (h : cylindricGrid dr dz oz layer material = .ok m) :
    ∃ as, cylFaceAreas pi m = .ok as ∧
      List.Forall₂ (fun v a => ∃ r z, dr[v.1]? = some r ∧ dz[v.2.2]? = some z ∧
        let ring := pi * (plane dr (v.1 + 1) ^ 2 - plane dr v.1 ^ 2)
        a = [ring, ring, r * z, 2 * pi * plane dr (v.1 + 1) * z, r * z, 2 * pi * plane dr v.1 * z])
        (listing layer dr.length 1 dz.length) as := by
  obtain ⟨e1, e2, e3⟩ := cyl_fields h
  subst e1 e3
  have hin : (cumsum (0 :: m.dr).dropLast).length = m.dr.length := by
    rw [cumsum_length]; simp
  have hout : (cumsum (0 :: m.dr).tail).length = m.dr.length := by rw [cumsum_length]; simp
  refine ⟨(listing m.layer m.dr.length 1 dz.length).map fun v =>
    let ring := (plane m.dr (v.1 + 1) ^ 2 - plane m.dr v.1 ^ 2) * pi
    [ring, ring, m.dr.getD v.1 0 * dz.getD v.2.2 0,
      (cumsum (0 :: m.dr).tail).getD v.1 0 * 2 * pi * dz.getD v.2.2 0,
      m.dr.getD v.1 0 * dz.getD v.2.2 0,
      (cumsum (0 :: m.dr).dropLast).getD v.1 0 * 2 * pi * dz.getD v.2.2 0], ?_, ?_⟩
  · unfold cylFaceAreas
    rw [areasHeights_ok pi h0 e2, ok_bind]
    simp only [e2, List.length_reverse]
    rw [tile_listing _ _ hin, tile_listing _ _ hout, tile_listing m.dr _ rfl]
    simp only [List.map_map, List.zipWith_map, List.zipWith_self, List.zip_map', Function.comp_def]
    cases m.layer
    · rw [if_neg (by simp), ravelF_listing]
    · rw [if_pos rfl]
  · rw [List.forall₂_map_right_iff, List.forall₂_same]
    intro v hv
    obtain ⟨hi, -, hk⟩ := mem_listing.1 (show (v.1, v.2.1, v.2.2) ∈ _ from hv)
    refine ⟨m.dr[v.1], dz[v.2.2], List.getElem?_eq_getElem hi, List.getElem?_eq_getElem hk, ?_⟩
    have c1 : (cumsum (0 :: m.dr).tail).getD v.1 0 = plane m.dr (v.1 + 1) :=
      getD_get _ _ _ (cumsum_get m.dr v.1 hi)
    have c2 : (cumsum (0 :: m.dr).dropLast).getD v.1 0 = plane m.dr v.1 := by
      refine getD_get _ _ _ ?_
      rw [cumsum_get _ _ (by simpa using hi)]
      congr 1
      rw [List.dropLast_eq_take, List.take_take]
      simp only [List.length_cons, Nat.add_sub_cancel]
      rw [min_eq_left (by omega), List.take_succ_cons, List.sum_cons, zero_add]
      rfl
    simp only [c1, c2, getD_get _ _ _ (List.getElem?_eq_getElem hi),
      getD_get _ _ _ (List.getElem?_eq_getElem hk)]
    simp only [List.cons.injEq, and_true]
    refine ⟨?_, ?_, ?_, ?_, ?_, ?_⟩ <;> first | trivial | ring

end

/-- C41 for the real numbers: positive volumes adding up to `π R² H`. -/
theorem C41_real (dr dz : List ℝ) (oz : Option ℝ) (layer : Bool) (material : Str)
    (m : CylMesh ℝ) (vs : List ℝ) (h0 : dr ≠ []) (h : cylindricGrid dr dz oz layer material = .ok m)
    (hv : cylVolumes Real.pi m = .ok vs) :
    (∀ v ∈ vs, 0 < v) ∧ vs.sum = Real.pi * dr.sum ^ 2 * dz.sum := by
  refine ⟨?_, C41_sum Real.pi dr dz oz layer material m vs h0 h hv⟩
  obtain ⟨vs', h1, h2⟩ := C41_volumes Real.pi dr dz oz layer material m h0 h
  rw [hv] at h1
  injection h1 with h1
  subst h1
  obtain ⟨⟨p1, p2⟩, -⟩ := C41_cells dr dz oz layer material m h
  have hm : ∀ v ∈ listing layer dr.length 1 dz.length, v.1 < dr.length := fun v hv =>
    (mem_listing.1 (show (v.1, v.2.1, v.2.2) ∈ _ from hv)).1
  generalize listing layer dr.length 1 dz.length = l at h2 hm
  clear hv h
  induction h2 with
  | nil => simp
  | @cons v vol l l' a _ ih =>
    intro w hw
    rcases List.mem_cons.1 hw with rfl | hw
    · obtain ⟨z, a1, rfl⟩ := a
      have hi := hm v List.mem_cons_self
      have hr := p1 _ (List.getElem_mem hi)
      have hz := p2 _ (List.mem_of_getElem? a1)
      have hp : 0 ≤ plane dr v.1 := List.sum_nonneg fun x hx => (p1 x (List.mem_of_mem_take hx)).le
      rw [plane_succ _ _ _ (List.getElem?_eq_getElem hi)]
      have : 0 < (plane dr v.1 + dr[v.1]) ^ 2 - plane dr v.1 ^ 2 := by nlinarith
      have := Real.pi_pos
      positivity
    · exact ih (fun v hv => hm v (List.mem_cons_of_mem _ hv)) w hw

example : ((cylindricGrid [(1 : ℚ), 2] [1, 4] none false "rock".toList) >>= cylVolumes 1) =
    .ok [4, 1, 32, 8] := by decide +kernel
example : ((cylindricGrid [(1 : ℚ), 2] [1, 4] none true "rock".toList) >>= cylVolumes 1) =
    .ok [4, 32, 1, 8] := by decide +kernel
example : ((cylindricGrid [(1 : ℚ), 2] [1] none false "rock".toList) >>= cylFaceAreas 1) =
    .ok [[1, 1, 1, 2, 1, 0], [8, 8, 2, 6, 2, 2]] := by decide +kernel

end Verif.Props
