import Verif.Lemmas.Reshape

/-!
# Extruding structured grids
-/

namespace Verif.Mesh
open Verif.Py Verif.Model Verif.Spec

section
variable {K : Type} [Field K] [LinearOrder K]

theorem edges_eq (d : List K) : edges d = (List.range (d.length + 1)).map (plane d) := by
  apply List.ext_getElem?
  intro i
  by_cases h : i ≤ d.length
  · rw [edges_get d i h, List.getElem?_map, List.getElem?_range (by omega)]
    rfl
  · rw [List.getElem?_eq_none (by rw [edges_length]; omega), List.getElem?_eq_none (by simp; omega)]

theorem split_one {α : Type} (b : CellBlock) (arr : List α) (h : arr.length = b.data.length) :
    split [b] arr = .ok [arr] := by
  obtain ⟨ps, hp⟩ := split_total (cells := [b]) (arr := arr) (by simpa [allCells] using h)
  obtain ⟨h1, -, -, h2⟩ := split_pieces hp
  have h2 := h2 (by simp)
  cases h2 with
  | cons hb hn =>
    cases hn
    simp only [List.flatten_cons, List.flatten_nil, List.append_nil] at h1
    rw [hp, h1]

/-- The result of extruding a 2D grid upwards. -/
theorem extrude_grid (pts : List (K × K)) (cells : List (List ℕ)) (o : K × K) (material : Str) (dz : List K)
    (h0 : pts ≠ []) :
    extrude (.three (pts.map fun p => (⟨p.1 + o.1, p.2 + o.2, 0⟩ : P3 K)))
      (gridMesh (pts.map fun p => ⟨p.1 + o.1, p.2 + o.2, 0⟩) .quad cells material) dz 2 =
      .ok (gridMesh ((List.range (dz.length + 1)).flatMap fun l => pts.map fun p =>
          (⟨p.1 + o.1, p.2 + o.2, plane dz l⟩ : P3 K)) .hexahedron
        ((List.range dz.length).flatMap fun l => cells.map (standing pts.length l)) material) := by
  have hb : basePoints .z (.three (pts.map fun p => (⟨p.1 + o.1, p.2 + o.2, 0⟩ : P3 K))) =
      .ok (pts.map fun p => (⟨p.1 + o.1, p.2 + o.2, 0⟩ : P3 K)) := by
    unfold basePoints
    dsimp only
    rw [if_neg]
    rw [not_not, List.map_map]
    have : (pts.map (coord .z ∘ fun p => (⟨p.1 + o.1, p.2 + o.2, 0⟩ : P3 K))) =
        List.replicate pts.length 0 := by
      rw [List.eq_replicate_iff]
      refine ⟨by simp, fun b hb => ?_⟩
      obtain ⟨p, -, rfl⟩ := List.mem_map.1 hb
      rfl
    rw [this, List.replicate_dedup (fun h => h0 (List.length_eq_zero_iff.1 h))]
    rfl
  unfold extrude
  rw [show toAxis 2 = .ok .z from rfl]
  simp only [ok_bind, hb, gridMesh]
  rw [show ([("material".toList, List.replicate cells.length (1 : ℤ))].mapM fun kv =>
      (do
        let ps ← split [⟨CellType.quad, cells⟩] kv.2
        .ok (kv.1, (extrudePieces dz.length [⟨CellType.quad, cells⟩] ps).flatten) : Except PyErr _)) =
      .ok [("material".toList, List.replicate ((List.range dz.length).flatMap fun l =>
        cells.map (standing pts.length l)).length (1 : ℤ))] from ?_]
  · simp only [ok_bind, stack_eq, List.length_map, extrudedType, extrudeRows_eq, List.filterMap_cons,
      Option.map_some, List.filterMap_nil, List.map_cons, List.map_nil, Except.ok.injEq, Mesh.mk.injEq, and_true]
    congr 1
    funext l
    rw [List.map_map]
    apply List.map_congr_left
    intro p _
    simp [P3.add, along, level, plane]
  · simp only [List.mapM_cons, List.mapM_nil]
    rw [split_one _ _ (by simp)]
    simp only [ok_bind, extrudePieces, extrudedType, List.flatten_cons, List.flatten_nil, List.append_nil]
    refine congrArg (fun l : List ℤ => Except.ok [("material".toList, l)]) ?_
    rw [List.eq_replicate_iff]
    refine ⟨?_, fun b hb => ?_⟩
    · rw [length_flatMap_const (n := cells.length) (by simp), tile]
      simp
    · rw [tile, List.mem_flatten] at hb
      obtain ⟨l, hl, hb⟩ := hb
      rw [List.eq_of_mem_replicate hl] at hb
      exact List.eq_of_mem_replicate hb

theorem grid2_length {α β : Type} (order : Order) (xs : List α) (ys : List β) :
    (grid2 order xs ys).length = xs.length * ys.length := by
  cases order <;> simp only [grid2]
  · rw [length_flatMap_const (n := ys.length) (by simp)]
  · rw [length_flatMap_const (n := xs.length) (by simp), Nat.mul_comm]

/-- The points of a 3D grid listed layer by layer are the points of the 2D grid at every level. -/
theorem layers_points (dx dy dz : List K) (o : K × K) :
    ((grid3 .F (edges dx) (edges dy) (edges dz)).map fun p => (⟨p.1, p.2.1, p.2.2⟩ : P3 K)).map
      (fun p => (⟨p.x + o.1, p.y + o.2, p.z + 0⟩ : P3 K)) =
    (List.range (dz.length + 1)).flatMap fun l => (grid2 .F (edges dx) (edges dy)).map fun p =>
          (⟨p.1 + o.1, p.2 + o.2, plane dz l⟩ : P3 K) := by
  simp only [grid3, grid2, edges_eq dz, List.map_flatMap, List.flatMap_map, List.map_map, Function.comp_def,
    add_zero]

theorem flatMap_swap {α β γ : Type} (f : α → β → γ) (xs : List α) (ys : List β) :
    (xs.flatMap fun a => ys.map (f a)).Perm (ys.flatMap fun b => xs.map fun a => f a b) := by
  induction xs with
  | nil => simp
  | cons a xs ih =>
    rw [List.flatMap_cons]
    refine (ih.append_left _).trans ?_
    have : ∀ zs : List β, (zs.map (f a) ++ zs.flatMap fun b => xs.map fun a => f a b).Perm
        (zs.flatMap fun b => (a :: xs).map fun a => f a b) := by
      intro zs
      induction zs with
      | nil => simp
      | cons z zs ih =>
        simp only [List.map_cons, List.flatMap_cons, List.cons_append]
        refine List.Perm.cons _ ?_
        rw [← List.append_assoc]
        refine (List.perm_append_comm.append_right _).trans ?_
        rw [List.append_assoc]
        exact ih.append_left _
    exact this ys

/-- The points of a 3D grid listed column by column are the same in another order. -/
theorem columns_points (dx dy dz : List K) (o : K × K) :
    List.Perm (((grid3 .C (edges dx) (edges dy) (edges dz)).map fun p => (⟨p.1, p.2.1, p.2.2⟩ : P3 K)).map
      (fun p => (⟨p.x + o.1, p.y + o.2, p.z + 0⟩ : P3 K)))
    ((List.range (dz.length + 1)).flatMap fun l => (grid2 .C (edges dx) (edges dy)).map fun p =>
          (⟨p.1 + o.1, p.2 + o.2, plane dz l⟩ : P3 K)) := by
  have e : ((grid3 .C (edges dx) (edges dy) (edges dz)).map fun p => (⟨p.1, p.2.1, p.2.2⟩ : P3 K)).map
      (fun p => (⟨p.x + o.1, p.y + o.2, p.z + 0⟩ : P3 K)) =
      (grid2 .C (edges dx) (edges dy)).flatMap fun p => (List.range (dz.length + 1)).map fun l =>
        (⟨p.1 + o.1, p.2 + o.2, plane dz l⟩ : P3 K) := by
    simp only [grid3, grid2, edges_eq dz, List.map_flatMap, List.flatMap_map, List.map_map, Function.comp_def,
      add_zero, List.flatMap_assoc]
  rw [e]
  exact flatMap_swap (fun (p : K × K) l => (⟨p.1 + o.1, p.2 + o.2, plane dz l⟩ : P3 K)) _ _

/-- The cells of a 3D grid are those of the 2D grid at every level. -/
theorem listing_perm (layer : Bool) (nx ny nz : ℕ) :
    (listing layer nx ny nz).Perm ((List.range nz).flatMap fun k =>
      (listing2 layer nx ny).map fun v => (v.1, v.2, k)) := by
  cases layer with
  | true =>
    have e : (listing true nx ny nz) = (List.range nz).reverse.flatMap fun k =>
        (listing2 true nx ny).map fun v => (v.1, v.2, k) := by
      simp only [listing, listing2, if_true, List.map_flatMap, List.map_map, Function.comp_def]
    rw [e]
    exact (List.reverse_perm _).flatMap_right _
  | false =>
    have e : (listing false nx ny nz) = (listing2 false nx ny).flatMap fun v =>
        (List.range nz).reverse.map fun k => (v.1, v.2, k) := by
      simp only [listing, listing2, Bool.false_eq_true, if_false, List.flatMap_map, List.flatMap_assoc]
    rw [e]
    refine (flatMap_swap (fun (v : ℕ × ℕ) k => (v.1, v.2, k)) _ _).trans ?_
    exact (List.reverse_perm _).flatMap_right _

/-- The vertices of a cell that stands on the copy of a cell of the 2D grid. -/
theorem standing_vertices (order : Order) (dx dy dz : List K) (o : K × K) (i j k : ℕ) (hi : i < dx.length)
    (hj : j < dy.length) (hk : k < dz.length) :
    Vertices ((List.range (dz.length + 1)).flatMap fun l => (grid2 order (edges dx) (edges dy)).map fun p =>
          (⟨p.1 + o.1, p.2 + o.2, plane dz l⟩ : P3 K))
      (standing (grid2 order (edges dx) (edges dy)).length k
        ((meshVertices2 (i, j)).map (index2 order (dx.length + 1) (dy.length + 1))))
      (corners dx dy dz ⟨o.1, o.2, 0⟩ (i, j, k)) := by
  have key : ∀ a b c : ℕ, a ≤ dx.length → b ≤ dy.length → c ≤ dz.length →
      ((List.range (dz.length + 1)).flatMap fun l => (grid2 order (edges dx) (edges dy)).map fun p =>
          (⟨p.1 + o.1, p.2 + o.2, plane dz l⟩ : P3 K))[c * (grid2 order (edges dx) (edges dy)).length +
            index2 order (dx.length + 1) (dy.length + 1) (a, b)]? =
        some (corner dx dy dz ⟨o.1, o.2, 0⟩ a b c) := by
    intro a b c ha hb hc
    have h2 := grid2_get order (edges_get dx a ha) (edges_get dy b hb)
    rw [edges_length, edges_length] at h2
    rw [flatMap_get (n := (grid2 order (edges dx) (edges dy)).length) (x := c) (by simp)
      (List.getElem?_eq_some_iff.1 h2).1 (by rw [List.getElem?_range (by omega)]), List.getElem?_map, h2]
    simp only [Option.map_some, corner, Option.some.injEq, P3.mk.injEq]
    exact ⟨add_comm _ _, add_comm _ _, (zero_add _).symm⟩
  unfold Vertices
  simp only [meshVertices2, corners, standing, List.map_cons, List.map_nil, List.cons_append, List.nil_append,
    List.forall₂_cons]
  refine ⟨?_, ?_, ?_, ?_, ?_, ?_, ?_, ?_, .nil⟩ <;> exact key _ _ _ (by omega) (by omega) (by omega)

theorem standing_layer (n1 n2 n3 i j k : ℕ) :
    (meshVertices3 (i, j, k)).map (index3 .F n1 n2 n3) =
      standing (n1 * n2) k ((meshVertices2 (i, j)).map (index2 .F n1 n2)) := by
  simp only [meshVertices3, meshVertices2, standing, List.map_cons, List.map_nil, List.cons_append,
    List.nil_append, index3, index2, List.cons.injEq, and_true]
  refine ⟨?_, ?_, ?_, ?_, ?_, ?_, ?_, ?_⟩ <;> ring

theorem layers_cells (nx ny nz n1 n2 n3 : ℕ) :
    (listing true nx ny nz).map (fun v => (meshVertices3 v).map (index3 .F n1 n2 n3)) =
      (List.range nz).reverse.flatMap fun k => ((listing2 true nx ny).map fun v =>
        (meshVertices2 v).map (index2 .F n1 n2)).map (standing (n1 * n2) k) := by
  simp only [listing, listing2, if_true, List.map_flatMap, List.map_map, Function.comp_def, standing_layer]

end

end Verif.Mesh
