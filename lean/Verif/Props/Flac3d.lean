import Verif.Lemmas.Flac3dFile
import Verif.Lemmas.Digits
import Mathlib.Algebra.Order.Ring.Defs
import Mathlib.Tactic.FinCases
import Mathlib.Tactic.Linarith
import Mathlib.Tactic.Ring

/-!
# C66: FLAC3D mesh files
-/

namespace Verif.Mesh
open Verif.Py Verif.Model Verif.Spec

/-- A tetrahedron, a wedge and two triangles. -/
def flacExample : FlacMesh where
  points := [⟨.fin false 0, .fin false 0, .fin false 0⟩, ⟨.fin false 1, .fin false 0, .fin false 0⟩,
    ⟨.fin false 0, .fin false 1, .fin false 0⟩, ⟨.fin false 0, .fin false 0, .fin false 1⟩,
    ⟨.fin false 1, .fin false 0, .fin false 1⟩, ⟨.fin false 0, .fin false 1, .fin false 1⟩]
  cells := [⟨.tetra, [[0, 1, 2, 3]]⟩, ⟨.wedge, [[0, 1, 2, 3, 4, 5]]⟩, ⟨.triangle, [[0, 1, 2], [3, 4, 5]]⟩]
  cellData := [("material".toList, [1, 2, 3, 3])]
  fieldData := [("rock".toList, 1, 3), ("fault".toList, 3, 2)]

/-- The sign of the scalar triple product in exact arithmetic. -/
def turnsRight (p q r s : P3 Flt) : Bool :=
  let num : Flt → ℚ := fun
    | .fin neg mag => if neg then -mag else mag
    | _ => 0
  let pt : P3 Flt → P3 ℚ := fun a => ⟨num a.x, num a.y, num a.z⟩
  decide (0 < edgeProduct (pt p) (pt q) (pt r) (pt s))

theorem flacExample_ok : FlacOk flacExample where
  cells := ⟨⟨.tetra, [[0, 1, 2, 3]]⟩, by decide, by decide⟩
  vertices := by
    intro b hb d t n hs
    fin_cases hb <;> cases hs <;> decide
  lengths := by decide

theorem flacExample_groups : TextGroupsOk flacExample [1, 2, 3, 3] where
  known := by decide
  order := by decide
  different := by decide +kernel
  words := by decide +kernel
  single := by decide +kernel

/-- C66. A mesh written as a text file for FLAC3D and read again: the points have all
digits that were written; the zones come first, those that are not right-handed as their
mirror images, then the faces, with their corners only; every cell is in a group that has
the name of its material.

Missing: materials when faces come before zones, cells of other types with a material,
several groups of faces, names of groups with blanks or quotation marks or that coincide;
what happens then is shown below. -/
theorem C66_round_trip_partial (p : ℕ) (pos : P3 Flt → P3 Flt → P3 Flt → P3 Flt → Bool) (version date : Str)
    {m : FlacMesh} (h : FlacOk m) (hg : ∀ mat, materialOfCells m = some mat → TextGroupsOk m mat) :
    ∃ r, (do let ls ← writeFlac p pos version date m; readFlac ls) = .ok r ∧ SameMesh (quant p) pos m r ∧
      SameGroups m r := by
  obtain ⟨ls, r, h1, h2, h3, h4⟩ := writeFlac_read p pos version date h hg
  exact ⟨r, by rw [h1, ok_bind, h2], h3, h4⟩

example : FlacOk flacExample ∧ ∀ mat, materialOfCells flacExample = some mat → TextGroupsOk flacExample mat :=
  ⟨flacExample_ok, fun mat hm => by
    have : materialOfCells flacExample = some [1, 2, 3, 3] := by decide
    rw [this] at hm
    cases hm
    exact flacExample_groups⟩

/-- C66. All lines of the text file: the points, the zones turned to the right hand, their
groups in the order of their materials, the faces with numbers after those of the zones,
and their groups. Here faces may come before zones, several groups of faces are allowed,
and names of groups may be any texts. -/
theorem C66_file (p : ℕ) (pos : P3 Flt → P3 Flt → P3 Flt → P3 Flt → Bool) (version date : Str) {m : FlacMesh}
    (h : FlacOk m) (hk : materialOfCells m ≠ none → ∀ b ∈ m.cells, dimOf b.type ≠ 0) :
    ∃ zones, List.Forall₂ (Oriented pos m.points) (cornersOf 3 m.cells) zones ∧
      writeFlac p pos version date m = .ok (flacFile p version date m zones) :=
  writeFlac_lines p pos version date h hk

example : FlacOk flacExample ∧ (materialOfCells flacExample ≠ none → ∀ b ∈ flacExample.cells, dimOf b.type ≠ 0) ∧
    (flacFile 2 "1.0".toList "today".toList flacExample [(.tetra, [0, 1, 2, 3]), (.wedge, [0, 2, 1, 3, 5, 4])]).map
      String.ofList = ["* FLAC3D grid produced by toughio v1.0\n", "* today\n", "* GRIDPOINTS\n",
        "G\t       1\t0.00e+00\t0.00e+00\t0.00e+00\n", "G\t       2\t1.00e+00\t0.00e+00\t0.00e+00\n",
        "G\t       3\t0.00e+00\t1.00e+00\t0.00e+00\n", "G\t       4\t0.00e+00\t0.00e+00\t1.00e+00\n",
        "G\t       5\t1.00e+00\t0.00e+00\t1.00e+00\n", "G\t       6\t0.00e+00\t1.00e+00\t1.00e+00\n",
        "* ZONES\n", "Z T4 1 1 2 3 4\n", "Z W6 2 1 3 4 2 6 5\n", "* ZONE GROUPS\n", "ZGROUP \"rock\"\n", " 1\n",
        "ZGROUP \"2\"\n", " 2\n", "* FACES\n", "F T3 3 1 2 3\n", "F T3 4 4 5 6\n", "* FACE GROUPS\n",
        "FGROUP \"fault\"\n", " 3 4\n"] :=
  ⟨flacExample_ok, fun _ => by decide, by decide +kernel⟩

/-- C66. With the default of sixteen digits after the point, all floats are exact. -/
theorem C66_exact_points {p : ℕ} (hp : 16 ≤ p) {pos : P3 Flt → P3 Flt → P3 Flt → P3 Flt → Bool} {m : FlacMesh}
    {r : FlacRead} (hd : ∀ q ∈ m.points, IsDouble q.x ∧ IsDouble q.y ∧ IsDouble q.z) (h : SameMesh (quant p) pos m r) :
    r.points = m.points.map fun q => [q.x, q.y, q.z] := by
  rw [h.points]
  apply List.map_congr_left
  intro q hq
  obtain ⟨h1, h2, h3⟩ := hd q hq
  rw [quant_double hp h1, quant_double hp h2, quant_double hp h3]

example : (16 ≤ 16) ∧ ∀ q ∈ flacExample.points, IsDouble q.x ∧ IsDouble q.y ∧ IsDouble q.z := by
  have h0 : IsDouble (.fin false 0) := ⟨0, 0, by norm_num, by norm_num, by norm_num, by simp⟩
  have h1 : IsDouble (.fin false 1) := ⟨1, 0, by norm_num, by norm_num, by norm_num, by simp⟩
  refine ⟨le_refl _, ?_⟩
  intro q hq
  fin_cases hq <;> simp only [h0, h1, and_self]

theorem triple_swap₁ {K : Type} [CommRing K] (a b c d : P3 K) : edgeProduct a c b d = -edgeProduct a b c d := by
  simp only [edgeProduct]
  ring

theorem triple_swap₂ {K : Type} [CommRing K] (a b c d : P3 K) : edgeProduct a d c b = -edgeProduct a b c d := by
  simp only [edgeProduct]
  ring

/-- The mirror image of a zone has a frame with two of the corners exchanged. -/
theorem frame_mirrored {t : CellType} {c : List ℕ} {a b d e : ℕ} (h : frame t c = [a, b, d, e]) :
    frame t (mirrored t c) = [a, d, b, e] ∨ frame t (mirrored t c) = [a, e, d, b] := by
  rw [frame.eq_def] at h
  split at h
  · simp only [List.cons.injEq, and_true] at h
    obtain ⟨rfl, rfl, rfl, rfl⟩ := h
    exact .inl rfl
  · simp only [List.cons.injEq, and_true] at h
    obtain ⟨rfl, rfl, rfl, rfl⟩ := h
    exact .inl rfl
  · simp only [List.cons.injEq, and_true] at h
    obtain ⟨rfl, rfl, rfl, rfl⟩ := h
    exact .inr rfl
  · simp only [List.cons.injEq, and_true] at h
    obtain ⟨rfl, rfl, rfl, rfl⟩ := h
    exact .inl rfl
  · cases h

/-- C66. In exact arithmetic, a zone whose triple product is not zero is right-handed
after writing and reading, so that doing so again changes nothing. -/
theorem C66_right_handed {K : Type} [CommRing K] [LinearOrder K] [IsStrictOrderedRing K] {points : List (P3 K)}
    {e e' : CellType × List ℕ} {a b c d : P3 K}
    (hf : (frame e.1 e.2).map (points[·]?) = [some a, some b, some c, some d]) (h0 : edgeProduct a b c d ≠ 0)
    (h : Oriented (fun p q r s => decide (0 < edgeProduct p q r s)) points e e') :
    RightHanded (fun p q r s => decide (0 < edgeProduct p q r s)) points e' := by
  obtain ⟨h1, h2, h3⟩ := h
  by_cases hr : RightHanded (fun p q r s => decide (0 < edgeProduct p q r s)) points e
  · rw [RightHanded, h1, h2 hr]
    exact hr
  · rw [RightHanded, h1, h3 hr]
    have hneg : edgeProduct a b c d < 0 := by
      rcases lt_trichotomy (edgeProduct a b c d) 0 with h | h | h
      · exact h
      · exact absurd h h0
      · exact absurd ⟨a, b, c, d, hf, decide_eq_true h⟩ hr
    obtain ⟨i, j, k, l, hfr⟩ : ∃ i j k l, frame e.1 e.2 = [i, j, k, l] := by
      have hl := congrArg List.length hf
      rw [List.length_map] at hl
      match hx : frame e.1 e.2, hl with
      | [i, j, k, l], _ => exact ⟨i, j, k, l, rfl⟩
    rw [hfr] at hf
    simp only [List.map_cons, List.map_nil, List.cons.injEq, and_true] at hf
    obtain ⟨e1, e2, e3, e4⟩ := hf
    rcases frame_mirrored hfr with hm | hm
    · refine ⟨a, c, b, d, by rw [hm]; simp [e1, e2, e3, e4], decide_eq_true ?_⟩
      rw [triple_swap₁]
      linarith
    · refine ⟨a, d, c, b, by rw [hm]; simp [e1, e2, e3, e4], decide_eq_true ?_⟩
      rw [triple_swap₂]
      linarith

example : edgeProduct (⟨0, 0, 0⟩ : P3 ℚ) ⟨0, 1, 0⟩ ⟨1, 0, 0⟩ ⟨0, 0, 1⟩ ≠ 0 := by
  norm_num [edgeProduct]

/-- C66. The orientation of cells is not always that of the mesh: the reference wedge is
read as its mirror image, with its faces turned inside, whereas the other reference
cells stay. -/
theorem C66_wedge_violated :
    (do let ls ← writeFlac 16 turnsRight [] []
          { flacExample with cellData := [] }
        let r ← readFlac ls
        .ok r.cells) =
      (.ok [⟨.tetra, [[0, 1, 2, 3]]⟩, ⟨.wedge, [[0, 2, 1, 3, 5, 4]]⟩, ⟨.triangle, [[0, 1, 2], [3, 4, 5]]⟩] :
        Except PyErr (List CellBlock)) := by
  decide +kernel

/-- C66. Without cells of a type of zones nothing is written. -/
theorem C66_no_zones (p : ℕ) (pos : P3 Flt → P3 Flt → P3 Flt → P3 Flt → Bool) (version date : Str) {m : FlacMesh}
    (h : ∀ b ∈ m.cells, dimOf b.type ≠ 3) : writeFlac p pos version date m = .error .valueError := by
  have hc : flacCheck m = .error .valueError := by
    rw [flacCheck]
    split
    · rfl
    · rw [if_neg]
      intro ha
      obtain ⟨b, hb, hs⟩ := List.any_eq_true.1 ha
      have h3 := h b hb
      rw [flacType_solid] at hs
      rw [dimOf] at h3
      cases hx : solidType b.type with
      | none => rw [hx] at hs; cases hs
      | some e =>
        obtain ⟨d, t, n⟩ := e
        rw [hx] at hs h3
        simp only [Option.map_some, Option.getD_some] at h3
        simp [FlacFlag.dim, h3] at hs
  rw [writeFlac, hc]
  rfl

example : ∀ b ∈ ([⟨.triangle, [[0, 1, 2]]⟩, ⟨.other "line".toList, [[0, 1]]⟩] : List CellBlock), dimOf b.type ≠ 3 := by
  decide +kernel

/-- C66. Nothing is written if cell data have not as many entries as there are cells. -/
theorem C66_wrong_length (p : ℕ) (pos : P3 Flt → P3 Flt → P3 Flt → P3 Flt → Bool) (version date : Str) {m : FlacMesh}
    (h : ∃ e ∈ m.cellData, e.2.length ≠ (typedCells m.cells).length) :
    writeFlac p pos version date m = .error .valueError := by
  have hc : flacCheck m = .error .valueError := by
    rw [flacCheck, if_pos]
    obtain ⟨e, he, hne⟩ := h
    rw [List.any_eq_true]
    refine ⟨e, he, ?_⟩
    rw [← typedCells_length]
    simpa using hne
  rw [writeFlac, hc]
  rfl

example : ∃ e ∈ [("material".toList, [(1 : ℤ), 2])], e.2.length ≠ (typedCells flacExample.cells).length := by
  decide +kernel

/-- C66. Faces before zones: the groups are numbered differently from the cells, and the
file cannot be read. -/
theorem C66_faces_first_violated :
    (do let ls ← writeFlac 16 turnsRight [] []
          { flacExample with
            cells := [⟨.triangle, [[0, 1, 2]]⟩, ⟨.tetra, [[0, 1, 2, 3]]⟩]
            cellData := [("material".toList, [1, 1])] }
        readFlac ls) = .error .keyError := by
  decide +kernel

/-- C66. Two groups of faces: the second one is taken for data of the first, and the file
cannot be read. -/
theorem C66_face_groups_violated :
    (do let ls ← writeFlac 16 turnsRight [] [] { flacExample with cellData := [("material".toList, [1, 1, 1, 2])] }
        readFlac ls) = .error .valueError := by
  decide +kernel

/-- C66. Cells of another type, not written, are counted as zones when it comes to
groups: the file cannot be read. -/
theorem C66_other_cells_violated :
    (do let ls ← writeFlac 16 turnsRight [] []
          { flacExample with
            cells := [⟨.tetra, [[0, 1, 2, 3]]⟩, ⟨.other "line".toList, [[0, 1]]⟩]
            cellData := [("material".toList, [1, 1])] }
        readFlac ls) = .error .keyError := by
  decide +kernel

/-- C66. Of a name with a blank only the first word is read. -/
theorem C66_blank_violated :
    (do let ls ← writeFlac 16 turnsRight [] []
          { flacExample with
            cells := [⟨.tetra, [[0, 1, 2, 3]]⟩]
            cellData := [("material".toList, [1])]
            fieldData := [("rock salt".toList, 1, 3)] }
        let r ← readFlac ls
        .ok (r.group, r.fieldData)) =
      (.ok (some [1], [("rock".toList, 1, 3)]) : Except PyErr (Option (List ℕ) × List (Str × ℕ × ℕ))) := by
  decide +kernel

/-- C66. A group of zones and a group of faces of the same material, which has no name:
only the second one stays in the field data. -/
theorem C66_same_name_violated :
    (do let ls ← writeFlac 16 turnsRight [] []
          { flacExample with
            cells := [⟨.tetra, [[0, 1, 2, 3]]⟩, ⟨.triangle, [[0, 1, 2]]⟩]
            cellData := [("material".toList, [1, 1])]
            fieldData := [] }
        let r ← readFlac ls
        .ok (r.group, r.fieldData)) =
      (.ok (some [1, 2], [("1".toList, 2, 2)]) : Except PyErr (Option (List ℕ) × List (Str × ℕ × ℕ))) := by
  decide +kernel

end Verif.Mesh
