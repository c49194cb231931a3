import Verif.Lemmas.ExtractMesh
import Verif.Props.Extract
import Verif.Props.MeshTough

/-!
# C93: extracting outputs for a mesh that was written
-/

namespace Verif.Props
open Verif.Py Verif.Model Verif.Mesh Verif.Spec Verif.Lemmas

/-- C93. In the MESH file written for a mesh, as toughio-extract reads it, every label generated for
the mesh has the centre of its cell.

Missing: as in C80, names that are not filled up to five characters, and numbers that do not fit
their columns. -/
theorem C93_centers_partial {D : Type} (fl : ℝ → Flt) (a : ToughArgs) (m : Mesh.Mesh ℝ D) (fs : List (List (List ℕ)))
    (mats : Option (List ℤ)) (boundary : Option (List Bool)) (inconData : List (Str × Arr)) (incon : Option (List Str))
    (hw : Writable fl a m fs mats boundary)
    (hincon : meshInconFile a.incon (nCells m.cells) none inconData = .ok incon) :
    ∃ labels lines p elems, labeler (nCells m.cells) none = .ok labels ∧
      writeTough fl a m none mats boundary inconData = .ok (lines, incon) ∧
      readFile none lines = .ok p ∧ p.elements = some elems ∧
      ∀ l ∈ labels, (PlainText l ∧ l.length ≤ 9) ∧
        ∃ c, LabelCenter fl a.coord m.points m.cells labels l c ∧ CenterIs elems.1 l c := by
  obtain ⟨labels, vols, cells, conns, k1, hv, k2, k3, -, -, k6, k7⟩ := C80_write_partial fl a m fs mats boundary
    inconData incon hw.solid hw.faces hw.proper hw.pair hw.count hw.given hw.conditions hw.names hw.ends hincon
  have hpos : 0 < nCells m.cells := by
    obtain ⟨i, j, -, a', b, -, f, g, ⟨row, hr, -⟩, -⟩ := hw.pair
    have hlen : fs.length = nCells m.cells := by rw [← (faces_rows hw.faces).length_eq, typedCells_length]
    rw [← hlen]
    exact lt_of_le_of_lt (Nat.zero_le i) (List.getElem?_eq_some_iff.1 hr).1
  obtain ⟨L, labels', hl1, hl2, hl3⟩ := C61_labels _ hpos hw.count
  rw [k1] at hl1
  cases hl1
  obtain ⟨lines, g1, g2⟩ := k7 (fun c hc => by
    obtain ⟨i, hi, hic⟩ := List.getElem_of_mem hc
    exact hw.cellsFit vols hv i c (k3 i c (by rw [List.getElem?_eq_getElem hi, hic]))) fun c hc => hw.connsFit labels k1 c (k6 c hc)
  refine ⟨labels, lines, _, _, k1, g1, g2, rfl, fun l hl => ⟨⟨plainText_wellFormed (hl3.formed l hl), ?_⟩, ?_⟩⟩
  · rw [(hl3.formed l hl).1]
    exact hl3.upper
  obtain ⟨i, hi, hil⟩ := List.getElem_of_mem hl
  have hli : labels[i]? = some l := by rw [List.getElem?_eq_getElem hi, hil]
  have hli' := hli
  rw [← k2, List.getElem?_map] at hli'
  obtain ⟨c, hc1, rfl⟩ := Option.map_eq_some_iff.1 hli'
  obtain ⟨-, -, -, vs, p, e1, e2, e3, e4, e5⟩ := k3 i c hc1
  refine ⟨_, ⟨i, vs, p, hli, e1, e2, rfl⟩, ?_⟩
  rw [← e3, ← e4, ← e5]
  exact centerIs_meshElems (k2 ▸ hl3.nodup) (List.mem_of_getElem? hc1)

/-- The hypotheses hold for the sample of C80, its numbers being replaced by 1. -/
theorem sampleMesh_writable (nodal : NodalDistance) (incon : Bool) :
    Writable (fun _ => .fin false 1) ⟨nodal, [], [], true, incon⟩ sampleMesh sampleFaces (some [1, 1, 1]) none where
  solid := sampleMesh_solid
  faces := rfl
  proper := sampleFaces_proper.1
  pair := ⟨0, 1, sampleFaces_proper.2⟩
  count := by decide
  given := by
    intro l h
    cases h
    decide
  conditions := by
    intro l h
    cases h
  names := by simp
  ends := by simp
  cellsFit := by
    rintro vols - i ⟨label, material, volume, bound, x, y, z⟩ ⟨h1, ⟨v, -, h2⟩, h3, vs, p, -, -, h4, h5, h6⟩
    dsimp only at h1 h2 h3 h4 h5 h6
    subst h2 h4 h5 h6
    have hm : material ∈ [Material.name "SAND".toList] := by
      have := List.mem_of_getElem? h1
      rw [show materialList (materials (nCells sampleMesh.cells) (some [1, 1, 1]) sampleMesh.fieldData) =
        List.replicate 3 (.name "SAND".toList) by decide +kernel] at this
      simpa using this
    have hb : bound = false := by
      have := List.mem_of_getElem? h3
      rw [Option.getD_none] at this
      exact (List.mem_replicate.1 this).2
    rw [List.mem_singleton.1 hm, hb]
    change CellFits [] true ⟨label, .name "SAND".toList, .fin false 1, false, .fin false 1, .fin false 1, .fin false 1⟩
    have key : CellFits [] true ⟨[], .name "SAND".toList, .fin false 1, false, .fin false 1, .fin false 1, .fin false 1⟩ := by
      decide +kernel
    exact key
  connsFit := by
    rintro labels - ⟨l1, l2, isot, d1, d2, area, angle⟩ ⟨i, j, a, b, f, v, ps, p, q, s, vs, ws, A, h⟩
    obtain ⟨-, -, -, -, -, -, -, -, -, -, -, -, -, h1, -, -, -, h2, h3, h4, h5⟩ := h
    dsimp only at h1 h2 h3 h4 h5
    subst h1 h3 h4 h5
    have hi : isot ∈ [1, 2, 3] := by
      rw [h2]
      unfold Verif.Mesh.isot
      generalize decide (f.line.x ≠ 0) = x
      generalize decide (f.line.y ≠ 0) = y
      generalize decide (f.line.z ≠ 0) = z
      revert x y z
      decide
    have key : ∀ k ∈ [1, 2, 3], MeshConnFits ⟨[], [], k, .fin false 1, .fin false 1, .fin false 1, .fin false 1⟩ := by
      decide +kernel
    exact key isot hi

example : meshInconFile false (nCells sampleMesh.cells) none [] = .ok none := by decide +kernel

/-- C93, CSV. If a mesh is written to a MESH file and a main output file has tables for cells of that
mesh, then toughio-extract gives a file with the same variables at the same times, and for every cell
the coordinates of its centre in the mesh, with the digits of the MESH file.

Missing: as above and in C71. -/
theorem C93_csv_partial {D : Type} (fl : ℝ → Flt) (a : ToughArgs) (m : Mesh.Mesh ℝ D) (fs : List (List (List ℕ)))
    (mats : Option (List ℤ)) (boundary : Option (List Bool)) (inconData : List (Str × Arr)) (incon : Option (List Str))
    (hw : Writable fl a m fs mats boundary)
    (hincon : meshInconFile a.incon (nCells m.cells) none inconData = .ok incon)
    (repr : Flt → Str) (mean : List Flt → Flt) (name : Option Str) :
    ∃ labels mesh, labeler (nCells m.cells) none = .ok labels ∧
        writeTough fl a m none mats boundary inconData = .ok (mesh, incon) ∧
          ∀ (vars ls pre : List Str) (steps : List ListingStep), (∀ l ∈ ls, l ∈ labels) → (∀ k ∈ vars, VarOk k) →
            ListingFile "ELEM.".toList 1 vars (ls.map fun l => [l]) pre steps →
            outputType (listingLines pre steps) = .ok (.element, .tough) →
            ∃ (cs : List (P3 Flt)) (lines : List Str) (rs : List (Output Str Flt)),
              List.Forall₂ (LabelCenter fl a.coord m.points m.cells labels) ls cs ∧
              extract repr mean ⟨name, .csv, none, false, false⟩ (some (listingLines pre steps)) (some mesh) =
                .ok [(name.getD "OUTPUT_ELEME.csv".toList, lines)] ∧
              readCsvElements lines none = .ok rs ∧
              List.Forall₂ (fun s r => r.time = (pyFloat s.timeText).map (quant 8) ∧ r.labels = ls ∧
                r.data.Perm (rounded (located cs s.output.data))) steps rs := by
  obtain ⟨labels, mesh, p, elems, k1, g1, g2, g3, g4⟩ := C93_centers_partial fl a m fs mats boundary
    inconData incon hw hincon
  refine ⟨labels, mesh, k1, g1, fun vars ls pre steps hls hv h ht => ?_⟩
  obtain ⟨cs, hcs⟩ := forall₂_exists (fun l hl => (g4 l (hls l hl)).2)
  obtain ⟨lines, rs, e1, e2, e3⟩ := C71_csv_partial repr mean name h ht g2 g3 (hcs.imp fun _ _ h => h.2) hv (by
    intro l hl
    refine ⟨rfl, fun t ht => ?_, fun t ht => .inl ?_⟩
    · rw [List.mem_singleton.1 ht]
      exact (g4 l (hls l hl)).1.1
    · cases ht
      have := (g4 l (hls l hl)).1.2
      omega)
  exact ⟨cs, lines, rs, hcs.imp fun _ _ h => h.1, e1, e2, e3⟩

/-- The example of C63 with two of the three cells of the sample, not in their order. -/
def sampleListing : ListingStep := { exampleListing with
  table := [
    .inl ⟨1, ["A1102".toList], "  ".toList, ⟨3, "1".toList⟩, [⟨1, "0.1E+06".toList⟩, ⟨1, "0.25E+02".toList⟩], 0⟩,
    .inl ⟨1, ["A1100".toList], "  ".toList, ⟨3, "2".toList⟩, [⟨1, "-0.2+06".toList⟩, ⟨1, "0.2E+02".toList⟩], 2⟩] }

example : labeler (nCells sampleMesh.cells) none = .ok ["A1100".toList, "A1101".toList, "A1102".toList] ∧
    (∀ l ∈ ["A1102".toList, "A1100".toList], l ∈ ["A1100".toList, "A1101".toList, "A1102".toList]) ∧
    (∀ k ∈ ["P".toList, "T".toList], VarOk k) ∧
    ListingFile "ELEM.".toList 1 ["P".toList, "T".toList] (["A1102".toList, "A1100".toList].map fun l => [l])
      extractHead [sampleListing] ∧
    outputType (listingLines extractHead [sampleListing]) = .ok (.element, .tough) := by
  refine ⟨by decide +kernel, by decide, by decide, ⟨by decide, by decide, by simp, by simp, ⟨5, by decide, ?_⟩, by decide⟩,
    by decide +kernel⟩
  intro s hs
  have : s = sampleListing := by simpa using hs
  subst this
  have e2 : ∀ r ∈ sampleListing.rows, RowFits 5 1 2 r := by decide +kernel
  exact ⟨by decide, by decide, by decide, by decide +kernel, by decide, by decide, by decide, by decide,
    by decide, by decide, e2, by decide, between_of (by decide), by decide, by decide⟩

/-- C93, Tecplot. As for CSV, without labels, for numbers that leave a blank in their columns.

Missing: as above and in C71. -/
theorem C93_tecplot_partial {D : Type} (fl : ℝ → Flt) (a : ToughArgs) (m : Mesh.Mesh ℝ D) (fs : List (List (List ℕ)))
    (mats : Option (List ℤ)) (boundary : Option (List Bool)) (inconData : List (Str × Arr)) (incon : Option (List Str))
    (hw : Writable fl a m fs mats boundary)
    (hincon : meshInconFile a.incon (nCells m.cells) none inconData = .ok incon)
    (repr : Flt → Str) (mean : List Flt → Flt) (name : Option Str) :
    ∃ labels mesh, labeler (nCells m.cells) none = .ok labels ∧
        writeTough fl a m none mats boundary inconData = .ok (mesh, incon) ∧
          ∀ (vars ls pre : List Str) (steps : List ListingStep), (∀ l ∈ ls, l ∈ labels) → (∀ k ∈ vars, TecName k) →
            ListingFile "ELEM.".toList 1 vars (ls.map fun l => [l]) pre steps →
            outputType (listingLines pre steps) = .ok (.element, .tough) →
            (∀ s ∈ steps, ∀ e ∈ s.output.data, ∀ x ∈ e.2, TecNum x) →
            (∀ l c, LabelCenter fl a.coord m.points m.cells labels l c → TecNum c.x ∧ TecNum c.y ∧ TecNum c.z) →
            ∃ (cs : List (P3 Flt)) (lines : List Str) (rs : List TecOut),
              List.Forall₂ (LabelCenter fl a.coord m.points m.cells labels) ls cs ∧
              extract repr mean ⟨name, .tecplot, none, false, false⟩ (some (listingLines pre steps)) (some mesh) =
                .ok [(name.getD "OUTPUT_ELEME.tec".toList, lines)] ∧
              readTecplot lines none = .ok rs ∧
              List.Forall₂ (fun s r => r.time = (pyFloat s.timeText).map (quant 7) ∧
                r.data.Perm (rounded (located cs s.output.data))) steps rs := by
  obtain ⟨labels, mesh, p, elems, k1, g1, g2, g3, g4⟩ := C93_centers_partial fl a m fs mats boundary
    inconData incon hw hincon
  refine ⟨labels, mesh, k1, g1, fun vars ls pre steps hls hv h ht hnum hcen => ?_⟩
  obtain ⟨cs, hcs⟩ := forall₂_exists (fun l hl => (g4 l (hls l hl)).2)
  have hc : ∀ c ∈ cs, TecNum c.x ∧ TecNum c.y ∧ TecNum c.z := by
    intro c hc
    obtain ⟨l, -, hl⟩ := forall₂_mem_right hcs hc
    exact hcen l c hl.1
  obtain ⟨lines, rs, e1, e2, e3⟩ := C71_tecplot_partial repr mean name h ht g2 g3 (hcs.imp fun _ _ h => h.2) hv (by
    intro s hs e he x hx
    unfold located at he
    rcases List.mem_append.1 he with he | he
    · simp only [List.mem_cons, List.not_mem_nil, or_false] at he
      rcases he with rfl | rfl | rfl <;> obtain ⟨c, hc', rfl⟩ := List.mem_map.1 hx
      · exact (hc c hc').1
      · exact (hc c hc').2.1
      · exact (hc c hc').2.2
    · exact hnum s hs e (List.mem_of_mem_filter he) x hx)
  exact ⟨cs, lines, rs, hcs.imp fun _ _ h => h.1, e1, e2, e3⟩

example : (∀ k ∈ ["P".toList, "T".toList], TecName k) ∧
    (∀ s ∈ [sampleListing], ∀ e ∈ s.output.data, ∀ x ∈ e.2, TecNum x) ∧
    ∀ labels l c, LabelCenter (fun _ => .fin false 1) true sampleMesh.points sampleMesh.cells labels l c →
      TecNum c.x ∧ TecNum c.y ∧ TecNum c.z := by
  refine ⟨by decide, by decide +kernel, ?_⟩
  rintro labels l c ⟨i, vs, p, -, -, -, rfl⟩
  have key : TecNum (quant (centerDigits true) (.fin false 1)) := by decide +kernel
  exact ⟨key, key, key⟩

/-- C93, Petrasim. As for CSV, for times that increase and are finite.

Missing: as above and in C71. -/
theorem C93_petrasim_partial {D : Type} (fl : ℝ → Flt) (a : ToughArgs) (m : Mesh.Mesh ℝ D) (fs : List (List (List ℕ)))
    (mats : Option (List ℤ)) (boundary : Option (List Bool)) (inconData : List (Str × Arr)) (incon : Option (List Str))
    (hw : Writable fl a m fs mats boundary)
    (hincon : meshInconFile a.incon (nCells m.cells) none inconData = .ok incon)
    (repr : Flt → Str) (mean : List Flt → Flt) (name : Option Str) :
    ∃ labels mesh, labeler (nCells m.cells) none = .ok labels ∧
        writeTough fl a m none mats boundary inconData = .ok (mesh, incon) ∧
          ∀ (vars ls pre : List Str) (steps : List ListingStep) (times : List Time), (∀ l ∈ ls, l ∈ labels) →
            (∀ k ∈ vars, FieldText k) →
            ListingFile "ELEM.".toList 1 vars (ls.map fun l => [l]) pre steps →
            outputType (listingLines pre steps) = .ok (.element, .tough) →
            steps.map (fun s => (pyFloat s.timeText).bind fun t => value (quant 12 t)) = times.map some →
            times.Pairwise (· < ·) →
            ∃ (cs : List (P3 Flt)) (lines : List Str) (rs : List (Output Str Flt)),
              List.Forall₂ (LabelCenter fl a.coord m.points m.cells labels) ls cs ∧
              extract repr mean ⟨name, .petrasim, none, false, false⟩ (some (listingLines pre steps)) (some mesh) =
                .ok [(name.getD "OUTPUT_ELEME.csv".toList, lines)] ∧
              readPetrasim lines none = .ok rs ∧
              List.Forall₂ (fun s r => r.time = (pyFloat s.timeText).map (quant 12) ∧ r.labels = ls ∧
                r.data.Perm (rounded (located cs s.output.data))) steps rs := by
  obtain ⟨labels, mesh, p, elems, k1, g1, g2, g3, g4⟩ := C93_centers_partial fl a m fs mats boundary
    inconData incon hw hincon
  refine ⟨labels, mesh, k1, g1, fun vars ls pre steps times hls hv h ht htimes hinc => ?_⟩
  obtain ⟨cs, hcs⟩ := forall₂_exists (fun l hl => (g4 l (hls l hl)).2)
  obtain ⟨lines, rs, e1, e2, e3⟩ := C71_petrasim_partial repr mean name h ht g2 g3 (hcs.imp fun _ _ h => h.2) hv
    (fun l hl => by
      obtain ⟨h1, h2, h3⟩ := (g4 l (hls l hl)).1.1
      exact ⟨fun c hc => ⟨(h1 c hc).1, (h1 c hc).2.2.1, (h1 c hc).2.2.2⟩, h2, h3⟩) htimes hinc
  exact ⟨cs, lines, rs, hcs.imp fun _ _ h => h.1, e1, e2, e3⟩

example : (∀ k ∈ ["P".toList, "T".toList], FieldText k) ∧
    ([sampleListing].map fun s => (pyFloat s.timeText).bind fun t => value (quant 12 t)) =
      [(((3 / 2 : ℚ) : WithTop ℚ) : Time)].map some := by
  decide +kernel

/-- C93, `--connection`. With a table of connections between cells of the mesh, the coordinates are the
means of those of the centres of the two cells.

Missing: as above. -/
theorem C93_connection_partial {D : Type} (fl : ℝ → Flt) (a : ToughArgs) (m : Mesh.Mesh ℝ D) (fs : List (List (List ℕ)))
    (mats : Option (List ℤ)) (boundary : Option (List Bool)) (inconData : List (Str × Arr)) (incon : Option (List Str))
    (hw : Writable fl a m fs mats boundary)
    (hincon : meshInconFile a.incon (nCells m.cells) none inconData = .ok incon)
    (repr : Flt → Str) (mean : List Flt → Flt) (name : Option Str) :
    ∃ labels mesh, labeler (nCells m.cells) none = .ok labels ∧
        writeTough fl a m none mats boundary inconData = .ok (mesh, incon) ∧
          ∀ (vars : List Str) (ls : List (Str × Str)) (pre : List Str) (steps : List ListingStep),
            (∀ l ∈ ls, l.1 ∈ labels ∧ l.2 ∈ labels) → (∀ k ∈ vars, VarOk k) →
            ListingFile "ELEM1".toList 2 vars (ls.map fun l => [l.1, l.2]) pre steps →
            outputType (listingLines pre steps) = .ok (.element, .tough) →
            ∃ (cs : List (P3 Flt × P3 Flt)) (lines : List Str) (rs : List (Output (List Str) Flt)),
              List.Forall₂ (fun l c => LabelCenter fl a.coord m.points m.cells labels l.1 c.1 ∧
                LabelCenter fl a.coord m.points m.cells labels l.2 c.2) ls cs ∧
              extract repr mean ⟨name, .csv, none, false, true⟩ (some (listingLines pre steps)) (some mesh) =
                .ok [(name.getD "OUTPUT_CONNE.csv".toList, lines)] ∧
              readCsv .connection lines = .ok rs ∧
              List.Forall₂ (fun s r => r.time = (pyFloat s.timeText).map (quant 8) ∧
                r.labels = ls.map (fun l => [l.1, l.2]) ∧
                r.data.Perm (rounded (located (cs.map fun c =>
                  ⟨mean [c.1.x, c.2.x], mean [c.1.y, c.2.y], mean [c.1.z, c.2.z]⟩) s.output.data))) steps rs := by
  obtain ⟨labels, mesh, p, elems, k1, g1, g2, g3, g4⟩ := C93_centers_partial fl a m fs mats boundary
    inconData incon hw hincon
  refine ⟨labels, mesh, k1, g1, fun vars ls pre steps hls hv h ht => ?_⟩
  obtain ⟨cs, hcs⟩ := forall₂_exists (R := fun (l : Str × Str) (c : P3 Flt × P3 Flt) =>
    (LabelCenter fl a.coord m.points m.cells labels l.1 c.1 ∧ CenterIs elems.1 l.1 c.1) ∧
      LabelCenter fl a.coord m.points m.cells labels l.2 c.2 ∧ CenterIs elems.1 l.2 c.2) (l := ls) (fun l hl => by
    obtain ⟨c, hc⟩ := (g4 l.1 (hls l hl).1).2
    obtain ⟨c', hc'⟩ := (g4 l.2 (hls l hl).2).2
    exact ⟨(c, c'), hc, hc'⟩)
  obtain ⟨lines, rs, e1, e2, e3⟩ := C71_connection_partial repr mean name h ht g2 g3
    (hcs.imp fun _ _ h => ⟨h.1.2, h.2.2⟩) hv (by
    intro l hl
    refine ⟨rfl, fun t ht => ?_, fun t ht => .inl ?_⟩
    · simp only [List.mem_cons, List.not_mem_nil, or_false] at ht
      rcases ht with rfl | rfl
      · exact (g4 _ (hls l hl).1).1.1
      · exact (g4 _ (hls l hl).2).1.1
    · cases ht
      have := (g4 _ (hls l hl).1).1.2
      omega)
  exact ⟨cs, lines, rs, hcs.imp fun _ _ h => ⟨h.1.1, h.2.1⟩, e1, e2, e3⟩

/-- The example of C63 with a connection of the sample. -/
def sampleConnection : ListingStep := { exampleConnection with
  table := [.inl ⟨1, ["A1100".toList, "A1101".toList], "  ".toList, ⟨3, "1".toList⟩, [⟨0, "-0.1E-05".toList⟩], 0⟩] }

example : (∀ l ∈ [("A1100".toList, "A1101".toList)], l.1 ∈ ["A1100".toList, "A1101".toList, "A1102".toList] ∧
      l.2 ∈ ["A1100".toList, "A1101".toList, "A1102".toList]) ∧ (∀ k ∈ ["FLOW".toList], VarOk k) ∧
    ListingFile "ELEM1".toList 2 ["FLOW".toList] ([("A1100".toList, "A1101".toList)].map fun l => [l.1, l.2])
      extractHead [sampleConnection] ∧
    outputType (listingLines extractHead [sampleConnection]) = .ok (.element, .tough) := by
  refine ⟨by decide, by decide, ⟨by decide, by decide, by simp, by simp, ⟨5, by decide, ?_⟩, by decide⟩, by decide +kernel⟩
  intro s hs
  have : s = sampleConnection := by simpa using hs
  subst this
  have e2 : ∀ r ∈ sampleConnection.rows, RowFits 5 2 1 r := by decide +kernel
  exact ⟨by decide, by decide, by decide, by decide +kernel, by decide, by decide, by decide, by decide,
    by decide, by decide, e2, by decide, between_of (by decide), by decide, by decide⟩

end Verif.Props
