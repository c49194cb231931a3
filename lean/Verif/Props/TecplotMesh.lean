import Verif.Lemmas.TecplotPoint
import Verif.Props.Avsucd

/-!
# C65: Tecplot mesh files
-/

namespace Verif.Mesh
open Verif.Py Verif.Model Verif.Spec

/-- C65. A mesh written as a Tecplot file and read again has the same points, exactly, all
its cells of the types of this format (next to solid cells, no plane ones) as cells of one
type, and one variable for every column of the data, exactly, under names with
underscores for blanks; the material is called `material` and comes last.

Missing: meshes whose first coordinate has a sign or whose first block is plane although
there are solid ones, names of more than two words or with special characters, variables
whose names coincide after reading; what happens to some of them is shown below. -/
theorem C65_round_trip_partial (flat : Bool) (version : Str) {m : AvsMesh} (h : TecMeshOk m) :
    ∃ r, (do let ls ← writeTecMesh flat version m; readTecMesh ls) = .ok r ∧
      r.points = m.points.map (fun p => if flat then [p.x, p.y] else [p.x, p.y, p.z]) ∧
      (∀ e ∈ tecCells m.cells, tecShape (decide (TecUniform m.cells)) e.1 = r.type) ∧
      r.cells = (tecCells m.cells).map (fun e => (tecVertices r.type e.1 e.2).map fun v : ℕ => (v : ℤ)) ∧
      r.pointData = (pointVariables m).map (fun e => (wordsJoined e.1, e.2)) ∧
      r.cellData = materialLast ((cellVariables m).map fun e => (wordsJoined e.1, e.2)) := by
  obtain ⟨ty, shape, h1, h2, h3, h4⟩ := write_eq flat version h
  obtain ⟨z, z1, z2, z3, z4, hr⟩ := read_to_zone flat version h h1
    (((tecCells m.cells).map fun e => tecVertices shape e.1 e.2).map fun c => spacedLine (c.map fun v => natStr (v + 1)))
  have hsup : ∀ e ∈ tecCells m.cells, TecSupported e.1 := by
    intro e he
    rw [tecCells, List.mem_filter] at he
    exact (of_decide_eq_true he.2).1
  obtain ⟨e0, he0⟩ := List.exists_mem_of_ne_nil _ h.cells
  have hlen : ∀ e ∈ tecCells m.cells, vertexCount shape = some (tecVertices shape e.1 e.2).length ∧
      tecVertices shape e.1 e.2 ≠ [] := by
    intro e he
    have := tecVertices_length (u := decide (TecUniform m.cells)) (hsup e he) (h.vertices e he)
    rwa [h3 e he] at this
  have hnp : m.points.length ≠ 0 := by
    obtain ⟨mag, y, zc, ps, hp⟩ := h.first
    rw [hp]
    simp
  have hjoin : joinNames (allPoint flat m) = tecCoords flat m.points ++ joinNames (pointVariables m) := by
    rw [allPoint, joinNames, List.map_append, tecCoords_joined]
    rfl
  have hXn : (["X".toList, "Y".toList, "Z".toList] ++ (joinNames (pointVariables m)).map (·.1)).Nodup := by
    have := h.distinct
    rw [List.map_append, ← List.append_assoc] at this
    have := (List.nodup_append.1 this).1
    rw [joinNames, List.map_map]
    exact this
  have hnodup : ((joinNames (allPoint flat m ++ cellVariables m)).map (·.1)).Nodup := by
    have e : joinNames (allPoint flat m ++ cellVariables m) =
        joinNames (allPoint flat m) ++ joinNames (cellVariables m) := List.map_append
    have e2 : (joinNames (allPoint flat m) ++ joinNames (cellVariables m)).map (·.1) =
        coordNames flat ++ (pointVariables m ++ cellVariables m).map fun e => wordsJoined e.1 := by
      rw [hjoin, joinNames, joinNames]
      simp [Function.comp_def, tecCoords_names]
    rw [e, e2]
    refine h.distinct.sublist (List.Sublist.append_right ?_ _)
    cases flat <;> decide
  have key := zoneRead_eq (P := allPoint flat m) (C := cellVariables m) hjoin hXn (pointVariables_z h) hnp (allPoint_facts flat h) (cellVariables_facts h)
    hnodup h2 z1 z2 z3 z4 (cells := (tecCells m.cells).map fun e => tecVertices shape e.1 e.2) (by simp)
    (by simpa using h.cells) (w := (tecVertices shape e0.1 e0.2).length)
    (by simpa using (hlen e0 he0).2) (by
      intro c hc
      obtain ⟨e, he, rfl⟩ := List.mem_map.1 hc
      have a := (hlen e he).1
      have b := (hlen e0 he0).1
      rw [a] at b
      exact Option.some.inj b)
  refine ⟨⟨m.points.map (coordsOf flat), shape, ((tecCells m.cells).map fun e => tecVertices shape e.1 e.2).map fun c =>
    c.map fun v : ℕ => (v : ℤ), joinNames (pointVariables m), renameMaterial (joinNames (cellVariables m))⟩,
    ?_, ?_, h3, ?_, rfl, ?_⟩
  · rw [h4, ok_bind, hr, key]
  · cases flat <;> rfl
  · rw [List.map_map]
    rfl
  · have hm : ((joinNames (cellVariables m)).filter fun e => IsMaterialName e.1).length ≤ 1 := by
      rw [joinNames, List.filter_map, List.length_map]
      exact h.material
    exact renameMaterial_last hm

/-- C65. The lines of the file that is written. -/
theorem C65_file (flat : Bool) (version : Str) {m : AvsMesh} (h : TecMeshOk m) :
    ∃ shape, (∀ e ∈ tecCells m.cells, tecShape (decide (TecUniform m.cells)) e.1 = shape) ∧
      writeTecMesh flat version m = .ok (tecFile flat version m shape) :=
  tecFile_eq flat version h

/-- A cell that is written as one of another type keeps its vertices; a cell of the same
type is unchanged. -/
theorem C65_vertices {u : Bool} {t : CellType} {c : List ℕ} (hs : TecSupported t) (h : vertexCount t = some c.length) :
    (∀ v, v ∈ tecVertices (tecShape u t) t c ↔ v ∈ c) ∧ (tecShape u t = t → tecVertices (tecShape u t) t c = c) ∧
      vertexCount (tecShape u t) = some (tecVertices (tecShape u t) t c).length := by
  refine ⟨?_, ?_, (tecVertices_length hs h).1⟩
  · have h1 : tecVertices (tecShape u t) t c = c ∨
        (∃ a b d, c = [a, b, d]) ∨ (∃ a b d e, c = [a, b, d, e]) ∨ (∃ a b d e f, c = [a, b, d, e, f]) ∨
        ∃ a b d e f g, c = [a, b, d, e, f, g] := by
      unfold tecVertices
      split
      · exact .inr (.inl ⟨_, _, _, rfl⟩)
      · exact .inr (.inr (.inl ⟨_, _, _, _, rfl⟩))
      · exact .inr (.inr (.inr (.inl ⟨_, _, _, _, _, rfl⟩)))
      · exact .inr (.inr (.inr (.inr ⟨_, _, _, _, _, _, rfl⟩)))
      · exact .inl rfl
    intro v
    unfold tecVertices
    split <;> simp only [List.mem_cons, List.not_mem_nil, or_false] <;> tauto
  · intro hst
    rw [hst]
    cases t <;> rfl

/-- C65. All entries of a zone are found, with any blanks and commas between them; a last
entry without blanks is lost (below). -/
theorem C65_zone {es : List (ZoneEntry × Str)} (h : ZoneOk es) :
    ∃ z, readZone ("ZONE ".toList ++ entriesText es) = .ok z ∧
      ∀ k, z.lookup k = (es.find? fun e => e.1.key = k).bind (·.1.result) :=
  readZone_entries h (by decide)

/-- C65. All variables are found, with or without quotes and with any blanks and commas
between them; the words of a name are joined by underscores. -/
theorem C65_variables {lead x : Str} (hl : Separator lead) {v : VarText} (hv : v.Ok) {vs : List (Str × VarText)}
    (hvs : ∀ v ∈ vs, Separator v.1 ∧ v.1 ≠ [] ∧ v.2.Ok) (hx : Separator x)
    (hX : ['X'] ∈ (v :: vs.map (·.2)).map (fun v => wordsJoined v.name) ∨
      ['x'] ∈ (v :: vs.map (·.2)).map (fun v => wordsJoined v.name))
    (hY : ['Y'] ∈ (v :: vs.map (·.2)).map (fun v => wordsJoined v.name) ∨
      ['y'] ∈ (v :: vs.map (·.2)).map (fun v => wordsJoined v.name)) :
    readVariables ("VARIABLES ".toList ++ '=' :: (lead ++ (v.text ++ (varsText vs ++ x)))) =
      .ok ((v :: vs.map (·.2)).map fun v => wordsJoined v.name) :=
  readVariables_vars (by decide) hl hv hvs hx hX hY

/-- C65. Whatever follows the first zone, such as other zones, is ignored. -/
theorem C65_later {ls : List Str} {r : TecMesh} (h : readTecMesh ls = .ok r) (more : List Str) :
    readTecMesh (ls ++ more) = .ok r :=
  tecMeshLoop_append more h

/-- C65. A file with its data given point by point, in any order of the variables, under any
of the keys of this format: the numbers of a line belong to a point, the coordinates are
those of the variables of these names and all other variables become data of points. -/
theorem C65_point_data {vline zline lead x : Str} (hl : Separator lead) {v : VarText} (hv : v.Ok)
    {vs : List (Str × VarText)} (hvs : ∀ v ∈ vs, Separator v.1 ∧ v.1 ≠ [] ∧ v.2.Ok) (hx : Separator x)
    (hvl : strip vline = "VARIABLES ".toList ++ '=' :: (lead ++ (v.text ++ (varsText vs ++ x))))
    {names : List Str} (hns : names = (v :: vs.map (·.2)).map fun v => wordsJoined v.name)
    {cx cy : Str} {cz : Option Str} (hn : TecNames names cx cy cz)
    {es : List (ZoneEntry × Str)} {rows : List (List Flt)} {cells : List (List ℤ)} {t : CellType}
    (hz : PointZone es rows.length cells.length t) (hzl : strip zline = "ZONE ".toList ++ entriesText es)
    (hrw : ∀ r ∈ rows, r.length = names.length) {c : Char} {l0 : Str} {rls : List Str} (hc : isDigit c = true)
    (hrl : List.Forall₂ (fun l r => (words (strip l)).mapM toFloat = .ok r) ((c :: l0) :: rls) rows)
    (hc0 : cells ≠ []) {w : ℕ} (hw : w ≠ 0) (hcw : ∀ c ∈ cells, c.length = w) {cls : List Str}
    (hcl : List.Forall₂ (fun l r => (words (strip l)).mapM toInt = .ok r) cls cells) :
    readTecMesh (vline :: zline :: (c :: l0) :: (rls ++ cls)) =
      .ok ⟨rows.map fun r => valueOf names r cx :: valueOf names r cy :: (cz.map fun c => valueOf names r c).toList,
        t, cells.map fun c => c.map (· - 1),
        (names.filter fun n => ¬ IsCoordinate n).map fun n => (n, rows.map fun r => valueOf names r n), []⟩ := by
  have mx := (mem_of_filter hn.first cx).1 (by simp)
  have my := (mem_of_filter hn.second cy).1 (by simp)
  have hX : ['X'] ∈ names ∨ ['x'] ∈ names := by
    rcases mx.2 with h | h
    · exact .inl (h ▸ mx.1)
    · exact .inr (h ▸ mx.1)
  have hY : ['Y'] ∈ names ∨ ['y'] ∈ names := by
    rcases my.2 with h | h
    · exact .inl (h ▸ my.1)
    · exact .inr (h ▸ my.1)
  have e1 := C65_variables hl hv hvs hx (by rw [← hns]; exact hX) (by rw [← hns]; exact hY)
  rw [← hvl, ← hns] at e1
  obtain ⟨z, e2, e3⟩ := C65_zone hz.ok
  have hr0 : rows ≠ [] := by
    rintro rfl
    cases hrl
  have key := pointZone_read hz e3 hn rfl hr0 hrw hrl rfl hc0 hw hcw hcl
  have u1 : startsWith (upper (strip vline)) "VARIABLES".toList = true := by
    rw [hvl, upper_append, show upper "VARIABLES ".toList = "VARIABLES ".toList by decide]
    simp [startsWith, List.isPrefixOf]
  have u2 : startsWith (upper (strip zline)) "VARIABLES".toList = false := by
    rw [hzl, upper_append, show upper "ZONE ".toList = "ZONE ".toList by decide]
    simp [startsWith, List.isPrefixOf]
  have u3 : startsWith (upper (strip zline)) "ZONE".toList = true := by
    rw [hzl, upper_append, show upper "ZONE ".toList = "ZONE ".toList by decide]
    simp [startsWith, List.isPrefixOf]
  rw [readTecMesh, tecMeshLoop]
  simp only [u1, if_true]
  rw [e1, ok_bind, tecMeshLoop]
  simp only [u2, u3, Bool.false_eq_true, if_false, if_true]
  rw [zoneMore_digit hc]
  simp only
  have e4 : joinWith ' ' [strip zline] = strip zline := rfl
  rw [e4, hzl, e2, ok_bind]
  exact key

/-- A last entry without blanks, in a zone without a title, is lost. -/
theorem C65_zone_glued_violated {es : List (ZoneEntry × Str)} (he : ∀ e ∈ es, e.1.Ok) (hs : SeparatorsOk es)
    (hn : (es.map fun e => e.1.key).Nodup) (hq : ∀ e ∈ es, ∀ s, e.1.value ≠ .quoted s) {e : ZoneEntry × Str}
    (hl : (es.filter fun e => ¬ e.1.Located).getLast? = some e) (hg : e.1.Glued) :
    ∃ z, readZone ("ZONE ".toList ++ entriesText es) = .ok z ∧
      ∀ k, z.lookup k = if k = e.1.key then none else (es.find? fun e => e.1.key = k).bind (·.1.result) :=
  readZone_glued he hs hn hq hl hg (by decide)

/-- A mesh without any cell of the types of this format is refused. -/
theorem C65_no_cells (flat : Bool) (version : Str) (m : AvsMesh)
    (h : ∀ e ∈ m.cellData, e.2.rows.length = (typedCells m.cells).length) (hc : tecBlockTypes m.cells = []) :
    writeTecMesh flat version m = .error .assertionError := by
  have hany : (m.cellData.any fun e => decide (e.2.rows.length ≠ nCells m.cells)) = false := by
    rw [List.any_eq_false]
    intro e he
    simp only [ne_eq, decide_not, Bool.not_eq_true', Bool.not_eq_false, decide_eq_true_eq]
    rw [h e he, typedCells_length]
  rw [writeTecMesh, hany, tecPlan, blockTypes_eq, hc]
  rfl

/-- Cell data of the wrong length are refused. -/
theorem C65_wrong_length (flat : Bool) (version : Str) (m : AvsMesh)
    (h : ∃ e ∈ m.cellData, e.2.rows.length ≠ (typedCells m.cells).length) :
    writeTecMesh flat version m = .error .valueError := by
  rw [writeTecMesh, if_pos]
  obtain ⟨e, he, hl⟩ := h
  rw [List.any_eq_true]
  rw [typedCells_length] at hl
  exact ⟨e, he, by simpa using hl⟩

/-- If the last line of a file is missing, reading it does not end. -/
theorem C65_truncated_violated (flat : Bool) (version : Str) {m : AvsMesh} (h : TecMeshOk m) :
    (do let ls ← writeTecMesh flat version m; readTecMesh ls.dropLast) = .error .diverges := by
  obtain ⟨ty, shape, h1, h2, h3, h4⟩ := write_eq flat version h
  obtain ⟨cs, c, hcs⟩ : ∃ cs c, (tecCells m.cells).map (fun e => tecVertices shape e.1 e.2) = cs ++ [c] := by
    have : (tecCells m.cells).map (fun e => tecVertices shape e.1 e.2) ≠ [] := by simpa using h.cells
    exact ⟨_, _, (List.dropLast_append_getLast this).symm⟩
  obtain ⟨z, z1, z2, z3, z4, hr⟩ := read_to_zone flat version h h1
    (cs.map fun c => spacedLine (c.map fun v => natStr (v + 1)))
  have hnp : m.points.length ≠ 0 := by
    obtain ⟨mag, y, zc, ps, hp⟩ := h.first
    rw [hp]
    simp
  have hne : ∀ c ∈ cs, c ≠ [] := by
    intro d hd
    have : d ∈ (tecCells m.cells).map (fun e => tecVertices shape e.1 e.2) := by rw [hcs]; simp [hd]
    obtain ⟨e, he, rfl⟩ := List.mem_map.1 this
    have hsup : TecSupported e.1 := by
      have he' := he
      rw [tecCells, List.mem_filter] at he'
      exact (of_decide_eq_true he'.2).1
    have := (tecVertices_length (u := decide (TecUniform m.cells)) hsup (h.vertices e he)).2
    rwa [h3 e he] at this
  have hlen : cs.length < (tecCells m.cells).length := by
    have := congrArg List.length hcs
    rw [List.length_map, List.length_append] at this
    simp only [List.length_singleton] at this
    omega
  have key := zoneRead_short (P := allPoint flat m) (C := cellVariables m) (by simp [allPoint, tecCoords]) hnp (allPoint_facts flat h)
    (cellVariables_facts h) z1 z2 z3 z4 hlen hne
  have e : (cs ++ [c]).map (fun c => spacedLine (c.map fun v => natStr (v + 1))) =
      cs.map (fun c => spacedLine (c.map fun v => natStr (v + 1))) ++ [spacedLine (c.map fun v => natStr (v + 1))] := by
    simp
  rw [h4, ok_bind, hcs, e, ← List.append_assoc]
  rw [List.dropLast_cons_of_ne_nil (by simp), List.dropLast_cons_of_ne_nil (by simp), List.dropLast_concat, hr, key]

/-! ### examples -/

/-- Two tetrahedra, a pyramid and a triangle that is not written. -/
def tecExample : AvsMesh where
  points := avsPoints
  cells := [⟨.tetra, [[0, 1, 2, 5], [1, 2, 3, 5]]⟩, ⟨.triangle, [[0, 1, 2]]⟩, ⟨.pyramid, [[0, 1, 2, 3, 4]]⟩]
  pointData := [("a b".toList, ⟨none, avsPoints.map fun _ => [avsNum 3]⟩), ("X".toList, ⟨none, avsPoints.map fun _ => [.nan]⟩)]
  cellData := [("flac3d:group".toList, ⟨none, [[avsNum 1], [avsNum 2], [avsNum 0], [avsNum 1]]⟩),
    ("v".toList, ⟨some 2, [[avsNum 1, avsNum 2], [avsNum 3, .nan], [avsNum 0, avsNum 0], [avsNum 5, .inf true]]⟩)]

theorem tecExample_ok : TecMeshOk tecExample where
  first := ⟨_, _, _, _, rfl⟩
  points := by
    have h0 : IsDouble (avsNum 0) := isDouble_num _ (by norm_num)
    have h1 : IsDouble (avsNum 1) := isDouble_num _ (by norm_num)
    have h2 : IsDouble (avsNum 2) := isDouble_num _ (by norm_num)
    have h3 : IsDouble (.fin true 1) := by simpa using isDouble_num (n := 1) true (by norm_num)
    have h4 : IsDouble (.fin false (1 / 2)) := ⟨1, -1, by norm_num, by norm_num, by norm_num, by norm_num⟩
    simp only [tecExample, avsPoints, List.forall_mem_cons, List.not_mem_nil, false_imp_iff, implies_true, and_true]
    exact ⟨⟨h0, h0, h0⟩, ⟨h1, h0, h0⟩, ⟨h1, h3, h0⟩, ⟨h0, h4, h0⟩, ⟨h0, h0, h1⟩, ⟨h0, h0, h2⟩⟩
  cells := by decide +kernel
  vertices := by decide +kernel
  solidFirst := by decide +kernel
  pointShape := by
    have h3 : IsDouble (avsNum 3) := isDouble_num _ (by norm_num)
    have hn : IsDouble .nan := trivial
    simp only [tecExample, avsPoints, List.forall_mem_cons, List.not_mem_nil, false_imp_iff, implies_true, and_true,
      List.map_cons, List.map_nil, List.length_cons, List.length_nil, Option.getD_none, true_and]
    exact ⟨⟨h3, h3, h3, h3, h3, h3⟩, hn, hn, hn, hn, hn, hn⟩
  cellShape := by
    have h0 : IsDouble (avsNum 0) := isDouble_num _ (by norm_num)
    have h1 : IsDouble (avsNum 1) := isDouble_num _ (by norm_num)
    have h2 : IsDouble (avsNum 2) := isDouble_num _ (by norm_num)
    have h3 : IsDouble (avsNum 3) := isDouble_num _ (by norm_num)
    have h5 : IsDouble (avsNum 5) := isDouble_num _ (by norm_num)
    have hn : IsDouble .nan := trivial
    have hi : IsDouble (.inf true) := trivial
    simp only [tecExample, List.forall_mem_cons, List.not_mem_nil, false_imp_iff, implies_true, and_true]
    refine ⟨⟨by decide, ⟨by decide, h1⟩, ⟨by decide, h2⟩, ⟨by decide, h0⟩, by decide, h1⟩, by decide,
      ⟨by decide, h1, h2⟩, ⟨by decide, h3, hn⟩, ⟨by decide, h0, h0⟩, by decide, h5, hi⟩
  names := by decide +kernel
  distinct := by decide +kernel
  material := by decide +kernel

example : ∃ r, (do let ls ← writeTecMesh false "1.2.3".toList tecExample; readTecMesh ls) = .ok r ∧
    r.points = avsPoints.map fun p => [p.x, p.y, p.z] := by
  obtain ⟨r, h1, h2, -⟩ := C65_round_trip_partial false "1.2.3".toList tecExample_ok
  exact ⟨r, h1, h2⟩

/-- Points of two coordinates. -/
example : ∃ r, (do let ls ← writeTecMesh true "1.2.3".toList tecExample; readTecMesh ls) = .ok r ∧
    r.points = avsPoints.map fun p => [p.x, p.y] := by
  obtain ⟨r, h1, h2, -⟩ := C65_round_trip_partial true "1.2.3".toList tecExample_ok
  exact ⟨r, h1, h2⟩

example : tecCells tecExample.cells = [(.tetra, [0, 1, 2, 5]), (.tetra, [1, 2, 3, 5]), (.pyramid, [0, 1, 2, 3, 4])] := by
  decide +kernel

example : (materialLast ((cellVariables tecExample).map fun e => (wordsJoined e.1, e.2))).map (·.1) =
    ["v_0".toList, "v_1".toList, "material".toList] := by
  decide +kernel

example : tecVertices (tecShape false .wedge) .wedge [0, 1, 2, 3, 4, 5] = [0, 1, 4, 3, 2, 2, 5, 5] := by decide

example : tecFile true "1.0".toList ⟨[⟨avsNum 0, avsNum 1, avsNum 5⟩, ⟨avsNum 1, avsNum 0, avsNum 5⟩,
      ⟨avsNum 2, avsNum 2, avsNum 5⟩], [⟨.triangle, [[0, 1, 2]]⟩], [],
    [("a b".toList, ⟨some 2, [[avsNum 3, .nan]]⟩)]⟩ .triangle =
    ["TITLE = \"Written by toughio v1.0\"\n".toList, "VARIABLES = \"X\", \"Y\", \"a b_0\", \"a b_1\"\n".toList,
      "ZONE NODES = 3, ELEMENTS = 1,\n".toList, "DATAPACKING = BLOCK, ZONETYPE = FETRIANGLE,\n".toList,
      "VARLOCATION = ([3-4] = CELLCENTERED)\n".toList, "0.0 1.0 2.0\n".toList, "1.0 0.0 2.0\n".toList,
      "3.0\n".toList, "nan\n".toList, "1 2 3\n".toList] := by
  decide +kernel

/-- The entries of a zone. -/
def zoneExample : List (ZoneEntry × Str) :=
  [(⟨"N".toList, [], [], .plain "62533".toList⟩, ", ".toList), (⟨"T".toList, [], [' '], .quoted "a, b=c".toList⟩, [' ']),
    (⟨"F".toList, [' '], [], .plain "FEBLOCK".toList⟩, [])]

example : ZoneOk zoneExample where
  entries := by
    simp only [zoneExample, List.forall_mem_cons, List.not_mem_nil, false_imp_iff, implies_true, and_true]
    refine ⟨⟨by decide, by decide, .inr ⟨by decide, by decide⟩, zonePlain_of (by decide) (by decide) (by decide)⟩,
      ⟨by decide, by decide, rfl, by decide, by decide⟩,
      ⟨by decide, by decide, .inl (by decide), zonePlain_of (by decide) (by decide) (by decide)⟩⟩
  separators := ⟨by decide, by decide, show Separator [] by decide⟩
  distinct := by decide
  last := by decide

example : (zoneExample.find? fun e => e.1.key = "T".toList).bind (·.1.result) = some (.txt "a, b=c".toList) := by decide

/-- Entries of which the last is lost. -/
def gluedExample : List (ZoneEntry × Str) :=
  [(⟨"N".toList, [], [], .plain "3".toList⟩, [' ']), (⟨"E".toList, [], [], .plain "1".toList⟩, [])]

example : (∀ e ∈ gluedExample, e.1.Ok) ∧ SeparatorsOk gluedExample ∧ (gluedExample.map fun e => e.1.key).Nodup ∧
    (∀ e ∈ gluedExample, ∀ s, e.1.value ≠ .quoted s) ∧
    ∃ e, (gluedExample.filter fun e => ¬ e.1.Located).getLast? = some e ∧ e.1.Glued := by
  refine ⟨?_, ⟨by decide, show Separator [] by decide⟩, by decide, ?_, _, rfl, by decide⟩
  · simp only [gluedExample, List.forall_mem_cons, List.not_mem_nil, false_imp_iff, implies_true, and_true]
    exact ⟨⟨by decide, by decide, .inr ⟨by decide, by decide⟩, zonePlain_of (by decide) (by decide) (by decide)⟩,
      ⟨by decide, by decide, .inr ⟨by decide, by decide⟩, zonePlain_of (by decide) (by decide) (by decide)⟩⟩
  · simp only [gluedExample, List.forall_mem_cons, List.not_mem_nil, false_imp_iff, implies_true, and_true]
    exact ⟨fun s => by simp, fun s => by simp⟩

example : readVariables "VARIABLES = \"X\" , Y Z,\"a b\"".toList = .ok ["X".toList, "Y".toList, "Z".toList, "a_b".toList] :=
  C65_variables (lead := [' ']) (x := []) (v := ⟨"X".toList, true⟩) (by decide) (by decide)
    (vs := [(" , ".toList, ⟨"Y".toList, false⟩), ([' '], ⟨"Z".toList, false⟩), ([','], ⟨"a b".toList, true⟩)])
    (by decide) (by decide) (by decide) (by decide)

/-- A file with two zones. -/
def pointFile : List Str :=
  ["TITLE = \"a\"\n".toList, "variables = y, \"P 1\" X\n".toList, "ZONE N=3, E=1, F=FEPOINT, ET = TRIANGLE\n".toList,
    "0 7.5 1\n".toList, "-1 nan 2\n".toList, "0.5 1e3 4\n".toList, "1 2 3\n".toList]

example : readTecMesh (pointFile ++ pointFile) =
    .ok ⟨[[avsNum 1, avsNum 0], [avsNum 2, .fin true 1], [avsNum 4, .fin false (1 / 2)]], .triangle, [[0, 1, 2]],
      [("P_1".toList, [.fin false (15 / 2), .nan, avsNum 1000])], []⟩ :=
  C65_later (by decide +kernel) _

/-- The entries of a zone with data given point by point. -/
def pointEntries : List (ZoneEntry × Str) :=
  [(⟨"N".toList, [], [], .plain "3".toList⟩, ", ".toList), (⟨"E".toList, [], [], .plain "1".toList⟩, [' ']),
    (⟨"F".toList, [' '], [], .plain "FEPOINT".toList⟩, [',']), (⟨"ET".toList, [' '], [' '], .plain "TRIANGLE".toList⟩, [])]

example : PointZone pointEntries 3 1 .triangle where
  ok :=
    { entries := by
        simp only [pointEntries, List.forall_mem_cons, List.not_mem_nil, false_imp_iff, implies_true, and_true]
        refine ⟨⟨by decide, by decide, .inr ⟨by decide, by decide⟩, zonePlain_of (by decide) (by decide) (by decide)⟩,
          ⟨by decide, by decide, .inr ⟨by decide, by decide⟩, zonePlain_of (by decide) (by decide) (by decide)⟩,
          ⟨by decide, by decide, .inl (by decide), zonePlain_of (by decide) (by decide) (by decide)⟩,
          ⟨by decide, by decide, .inl (by decide), zonePlain_of (by decide) (by decide) (by decide)⟩⟩
      separators := ⟨by decide, by decide, by decide, show Separator [] by decide⟩
      distinct := by decide
      last := by decide }
  format := ⟨"TRIANGLE".toList, ⟨_, .inl rfl, by decide⟩, .inl (by decide)⟩
  nodes := .inl (by decide)
  elements := .inl (by decide)

example : TecNames ["y".toList, "P_1".toList, "X".toList] ['X'] ['y'] none where
  distinct := by decide
  first := by decide
  second := by decide
  third := by decide

example : List.Forall₂ (fun l r => (words (strip l)).mapM toFloat = .ok r)
    ["0 7.5 1\n".toList, "-1 nan 2\n".toList, "0.5 1e3 4\n".toList]
    [[avsNum 0, .fin false (15 / 2), avsNum 1], [.fin true 1, .nan, avsNum 2],
      [.fin false (1 / 2), avsNum 1000, avsNum 4]] :=
  .cons (by decide +kernel) (.cons (by decide +kernel) (.cons (by decide +kernel) .nil))

/-! ### violations -/

/-- A triangle. -/
def tecTriangle (x : Flt) : AvsMesh where
  points := [⟨x, avsNum 0, avsNum 0⟩, ⟨avsNum 1, avsNum 0, avsNum 0⟩, ⟨avsNum 0, avsNum 1, avsNum 0⟩]
  cells := [⟨.triangle, [[0, 1, 2]]⟩]
  pointData := []
  cellData := []

/-- If the first coordinate of the first point is negative, the line with the coordinates
is taken for a part of the zone, and the file cannot be read. -/
theorem C65_negative_violated :
    (do let ls ← writeTecMesh false [] (tecTriangle (.fin true 1)); readTecMesh ls) = .error .keyError := by
  decide +kernel

/-- Without the sign it can be read. -/
example : (do let ls ← writeTecMesh false [] (tecTriangle (.fin false 1)); readTecMesh ls) =
    .ok ⟨[[avsNum 1, avsNum 0, avsNum 0], [avsNum 1, avsNum 0, avsNum 0], [avsNum 0, avsNum 1, avsNum 0]],
      .triangle, [[0, 1, 2]], [], []⟩ := by
  decide +kernel

/-- A mesh whose first block is plane, with a solid cell: the solid cell is read as a
quadrilateral of eight vertices. -/
theorem C65_plane_first_violated :
    (do
      let ls ← writeTecMesh false []
        ⟨avsPoints, [⟨.triangle, [[0, 1, 2]]⟩, ⟨.tetra, [[0, 1, 2, 5]]⟩], [], []⟩
      let r ← readTecMesh ls
      .ok (r.type, r.cells)) = .ok (.quad, [[0, 1, 2, 2, 5, 5, 5, 5]]) := by
  decide +kernel

/-- A name of three words is cut and the rest of it joined to the next name, or, at the end
of the line, is an error. -/
theorem C65_three_words_violated :
    readVariables "VARIABLES = \"X\", \"Y\", \"a b c\", \"d\"".toList =
      .ok ["X".toList, "Y".toList, "a_b".toList, "c_d".toList] ∧
    readVariables "VARIABLES = \"X\", \"Y\", \"a b c\"".toList = .error .indexError := by
  decide +kernel

/-- An empty title is read as another one. -/
theorem C65_empty_title_violated :
    readZone "ZONE T = \"\", N = 1".toList = .ok [("T".toList, .txt "PLACEHOLDER".toList), ("N".toList, .int 1)] := by
  decide +kernel

/-- An empty line before the zone ends the reading. -/
theorem C65_empty_line_violated (ls : List Str) : readTecMesh (['\n'] :: ls) = .error .unboundLocalError := by
  rfl

end Verif.Mesh
