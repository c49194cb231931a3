import Verif.Lemmas.TecplotFile

/-!
# Lemmas on writing and reading Tecplot mesh files
-/

namespace Verif.Mesh
open Verif.Py Verif.Model Verif.Spec

/-- The variables of points with the coordinates. -/
def allPoint (flat : Bool) (m : AvsMesh) : List (Str × List Flt) := tecCoords flat m.points ++ pointVariables m

/-- The names of the coordinates. -/
def coordNames (flat : Bool) : List Str := "X".toList :: "Y".toList :: if flat then [] else ["Z".toList]

theorem tecCoords_names (flat : Bool) (points : List (P3 Flt)) :
    (tecCoords flat points).map (·.1) = coordNames flat := by
  cases flat <;> rfl

theorem coordNames_joined (flat : Bool) : (coordNames flat).map wordsJoined = coordNames flat := by
  cases flat <;> decide

theorem tecCoords_joined (flat : Bool) (points : List (P3 Flt)) :
    (tecCoords flat points).map (fun e => (wordsJoined e.1, e.2)) = tecCoords flat points := by
  have hx : wordsJoined "X".toList = "X".toList := by decide
  have hy : wordsJoined "Y".toList = "Y".toList := by decide
  have hz : wordsJoined "Z".toList = "Z".toList := by decide
  cases flat
  · show [(wordsJoined "X".toList, points.map (·.x)), (wordsJoined "Y".toList, points.map (·.y)),
      (wordsJoined "Z".toList, points.map (·.z))] = _
    rw [hx, hy, hz]
    rfl
  · show [(wordsJoined "X".toList, points.map (·.x)), (wordsJoined "Y".toList, points.map (·.y))] = _
    rw [hx, hy]
    rfl

theorem write_eq (flat : Bool) (version : Str) {m : AvsMesh} (h : TecMeshOk m) :
    ∃ ty shape, ty ∈ zoneNames ∧ dictGet tecTypes ty = .ok shape ∧
      (∀ e ∈ tecCells m.cells, tecShape (decide (TecUniform m.cells)) e.1 = shape) ∧
      writeTecMesh flat version m = .ok (("TITLE = \"Written by toughio v".toList ++ version ++ ['"', '\n']) ::
        ("VARIABLES = ".toList ++ quotedNames ((allPoint flat m ++ cellVariables m).map (·.1)) ++ ['\n']) ::
        (tecZoneLines m.points.length (tecCells m.cells).length (allPoint flat m).length (cellVariables m).length ty ++
          (allPoint flat m ++ cellVariables m).flatMap (fun e => tecTable e.2) ++
          ((tecCells m.cells).map fun e => tecVertices shape e.1 e.2).map fun c =>
            spacedLine (c.map fun v => natStr (v + 1)))) := by
  have hne : tecBlockTypes m.cells ≠ [] := by
    obtain ⟨e, he⟩ := List.exists_mem_of_ne_nil _ h.cells
    rw [tecCells, List.mem_filter] at he
    obtain ⟨b, hb, hbt, -⟩ := mem_typedCells he.1
    have hs := of_decide_eq_true he.2
    apply List.ne_nil_of_mem (a := b.type)
    rw [tecBlockTypes, List.mem_filter]
    exact ⟨List.mem_map_of_mem hb, decide_eq_true (hbt ▸ hs.1)⟩
  obtain ⟨ty, keep, order, shape, h1, h2, h3, h4, h5⟩ := tecPlan_ok hne h.solidFirst
  refine ⟨ty, shape, h2, h3, ?_, ?_⟩
  · intro e he
    rw [tecCells, List.mem_filter] at he
    obtain ⟨b, hb, hbt, -⟩ := mem_typedCells he.1
    rw [hbt]
    exact (h5 b hb (hbt ▸ of_decide_eq_true he.2)).1
  · have hany : (m.cellData.any fun e => decide (e.2.rows.length ≠ nCells m.cells)) = false := by
      rw [List.any_eq_false]
      intro e he
      simp only [ne_eq, decide_not, Bool.not_eq_true', Bool.not_eq_false, decide_eq_true_eq]
      rw [(h.cellShape e he).1, typedCells_length]
    rw [writeTecMesh, hany]
    simp only [Bool.false_eq_true, if_false]
    rw [h1, ok_bind]
    simp only
    rw [writtenCells_eq h4 (fun b hb hw => (h5 b hb hw).2) h.vertices, ok_bind,
      tecData_eq (fun e he r hr => ((h.pointShape e he).2 r hr).1), ok_bind,
      cellData_eq h4 (fun e he => ⟨(h.cellShape e he).1, fun r hr => ((h.cellShape e he).2 r hr).1⟩), ok_bind]
    simp only [List.length_map]
    rfl

theorem quotedNames_eq (n : Str) (ns : List Str) : quotedNames (n :: ns) =
    (VarText.mk n true).text ++ varsText (ns.map fun v => ([',', ' '], ⟨v, true⟩)) := by
  induction ns generalizing n with
  | nil => simp [quotedNames, VarText.text, varsText]
  | cons k ns ih =>
    rw [quotedNames, ih]
    · simp [VarText.text, varsText]
    · simp

theorem variables_read_two {names : List Str} (h : ∀ n ∈ names, TecVarName n) :
    let line := "VARIABLES = ".toList ++ quotedNames ("X".toList :: "Y".toList :: names) ++ ['\n']
    startsWith (upper (strip line)) "VARIABLES".toList = true ∧
      readVariables (strip line) = .ok ("X".toList :: "Y".toList :: names.map wordsJoined) := by
  intro line
  have hq : quotedNames ("X".toList :: "Y".toList :: names) = (VarText.mk "X".toList true).text ++
      varsText (("Y".toList :: names).map fun v => ([',', ' '], ⟨v, true⟩)) :=
    quotedNames_eq "X".toList ("Y".toList :: names)
  have hlast : ∀ n ns, ∃ s, quotedNames (n :: ns) = s ++ ['"'] := by
    intro n ns
    induction ns generalizing n with
    | nil => exact ⟨'"' :: n, rfl⟩
    | cons k ns ih =>
      obtain ⟨s, hs⟩ := ih k
      exact ⟨'"' :: (n ++ ('"' :: ',' :: ' ' :: s)), by rw [quotedNames, hs]; simp; simp⟩
  have hstrip : strip line = "VARIABLES = ".toList ++ quotedNames ("X".toList :: "Y".toList :: names) := by
    apply strip_line
    · intro c hc
      have : c = 'V' := by simpa using hc.symm
      rw [this]; decide
    · obtain ⟨s, hs⟩ := hlast "X".toList ("Y".toList :: names)
      rw [show quotedNames ("X".toList :: "Y".toList :: names) = s ++ ['"'] from hs, ← List.append_assoc]
      intro c hc
      rw [List.getLast?_append_of_ne_nil _ (by simp)] at hc
      have : c = '"' := by simpa using hc.symm
      rw [this]; decide
  refine ⟨?_, ?_⟩
  · rw [hstrip, upper_append, show upper "VARIABLES = ".toList = "VARIABLES = ".toList by decide]
    simp [startsWith, List.isPrefixOf]
  · rw [hstrip, hq]
    have hX : TecVarName "X".toList := by decide
    have hY : TecVarName "Y".toList := by decide
    have hok : ∀ n, TecVarName n → (VarText.mk n true).Ok := fun n hn => ⟨hn, by simp⟩
    have := readVariables_vars (h := "VARIABLES ".toList) (lead := [' ']) (x := []) (by decide) (by decide)
      (hok _ hX) (vs := ("Y".toList :: names).map fun v => ([',', ' '], ⟨v, true⟩)) (by
        intro v hv
        obtain ⟨n, hn, rfl⟩ := List.mem_map.1 hv
        refine ⟨show Separator [',', ' '] by decide, by simp, hok _ ?_⟩
        simp only [List.mem_cons] at hn
        rcases hn with rfl | hn
        · exact hY
        · exact h n hn) (by decide) (.inl (by
          rw [List.map_cons]
          exact List.mem_cons.2 (.inl (by decide)))) (.inl (by
          rw [List.map_cons, List.map_cons, List.map_cons, List.map_cons]
          exact List.mem_cons.2 (.inr (List.mem_cons.2 (.inl (by decide))))))
    rw [List.append_nil] at this
    have e : "VARIABLES ".toList ++ '=' :: ([' '] ++ ((VarText.mk "X".toList true).text ++
        varsText (("Y".toList :: names).map fun v => ([',', ' '], ⟨v, true⟩)))) =
        "VARIABLES = ".toList ++ ((VarText.mk "X".toList true).text ++
        varsText (("Y".toList :: names).map fun v => ([',', ' '], ⟨v, true⟩))) := rfl
    rw [← e, this, List.map_cons, List.map_map, List.map_map]
    rfl

theorem variables_read (flat : Bool) {names : List Str} (h : ∀ n ∈ names, TecVarName n) :
    let line := "VARIABLES = ".toList ++ quotedNames (coordNames flat ++ names) ++ ['\n']
    startsWith (upper (strip line)) "VARIABLES".toList = true ∧
      readVariables (strip line) = .ok (coordNames flat ++ names.map wordsJoined) := by
  cases flat with
  | true => exact variables_read_two h
  | false =>
    have := variables_read_two (names := "Z".toList :: names) (by
      intro n hn
      rcases List.mem_cons.1 hn with rfl | hn
      · decide
      · exact h n hn)
    rw [List.map_cons, show wordsJoined "Z".toList = "Z".toList by decide] at this
    exact this

theorem tecVertices_length {u : Bool} {t : CellType} {c : List ℕ} (hs : TecSupported t)
    (h : vertexCount t = some c.length) :
    vertexCount (tecShape u t) = some (tecVertices (tecShape u t) t c).length ∧
      (tecVertices (tecShape u t) t c) ≠ [] := by
  cases t with
  | other s => simp [TecSupported] at hs
  | triangle =>
    have h : c.length = 3 := by simpa [vertexCount] using h.symm
    obtain ⟨a, c1, rfl, h1⟩ := length_cases h
    obtain ⟨b, c2, rfl, h2⟩ := length_cases h1
    obtain ⟨d, c3, rfl, h3⟩ := length_cases h2
    obtain rfl := List.length_eq_zero_iff.1 h3
    cases u <;> exact ⟨rfl, by simp [tecShape, TecSolid, tecVertices]⟩
  | quad =>
    have h : c.length = 4 := by simpa [vertexCount] using h.symm
    have hc : c ≠ [] := by rintro rfl; simp at h
    have e : ∀ u, tecShape u .quad = .quad := by decide
    rw [e, tecVertices, vertexCount, h]
    · exact ⟨rfl, hc⟩
    all_goals simp
  | tetra =>
    have h : c.length = 4 := by simpa [vertexCount] using h.symm
    obtain ⟨a, c1, rfl, h1⟩ := length_cases h
    obtain ⟨b, c2, rfl, h2⟩ := length_cases h1
    obtain ⟨d, c3, rfl, h3⟩ := length_cases h2
    obtain ⟨e, c4, rfl, h4⟩ := length_cases h3
    obtain rfl := List.length_eq_zero_iff.1 h4
    cases u <;> exact ⟨rfl, by simp [tecShape, TecSolid, tecVertices]⟩
  | pyramid =>
    have h : c.length = 5 := by simpa [vertexCount] using h.symm
    obtain ⟨a, c1, rfl, h1⟩ := length_cases h
    obtain ⟨b, c2, rfl, h2⟩ := length_cases h1
    obtain ⟨d, c3, rfl, h3⟩ := length_cases h2
    obtain ⟨e, c4, rfl, h4⟩ := length_cases h3
    obtain ⟨f, c5, rfl, h5⟩ := length_cases h4
    obtain rfl := List.length_eq_zero_iff.1 h5
    cases u <;> exact ⟨rfl, by simp [tecShape, TecSolid, tecVertices]⟩
  | wedge =>
    have h : c.length = 6 := by simpa [vertexCount] using h.symm
    obtain ⟨a, c1, rfl, h1⟩ := length_cases h
    obtain ⟨b, c2, rfl, h2⟩ := length_cases h1
    obtain ⟨d, c3, rfl, h3⟩ := length_cases h2
    obtain ⟨e, c4, rfl, h4⟩ := length_cases h3
    obtain ⟨f, c5, rfl, h5⟩ := length_cases h4
    obtain ⟨g, c6, rfl, h6⟩ := length_cases h5
    obtain rfl := List.length_eq_zero_iff.1 h6
    cases u <;> exact ⟨rfl, by simp [tecShape, TecSolid, tecVertices]⟩
  | hexahedron =>
    have h : c.length = 8 := by simpa [vertexCount] using h.symm
    have hc : c ≠ [] := by rintro rfl; simp at h
    have e : ∀ u, tecShape u .hexahedron = .hexahedron := by decide
    rw [e, tecVertices, vertexCount, h]
    · exact ⟨rfl, hc⟩
    all_goals simp

/-- Names joined, numbers unchanged. -/
def joinNames (vs : List (Str × List Flt)) : List (Str × List Flt) := vs.map fun e => (wordsJoined e.1, e.2)

theorem zip_joinNames (vs : List (Str × List Flt)) :
    (vs.map fun e => wordsJoined e.1).zip (vs.map (·.2)) = joinNames vs := by
  induction vs with
  | nil => rfl
  | cons e vs ih => rw [List.map_cons, List.map_cons, List.zip_cons_cons, ih]; rfl

theorem tecValues_eq {np nc : ℕ} {P C : List (Str × List Flt)} (hPne : P ≠ []) (hn0 : np ≠ 0)
    (hPl : ∀ e ∈ P, e.2.length = np ∧ ∀ x ∈ e.2, IsDouble x) (hCl : ∀ e ∈ C, e.2.length = nc ∧ ∀ x ∈ e.2, IsDouble x)
    (rest : List Str) :
    tecValues "FEBLOCK".toList np
      ((List.replicate P.length false ++ List.replicate C.length true).map fun i => if i then nc else np)
      ((P ++ C).flatMap (fun e => tecTable e.2) ++ rest) = .ok ((P ++ C).map (·.2), rest) := by
  have hsizes : (List.replicate P.length false ++ List.replicate C.length true).map (fun i => if i then nc else np) =
      ((P ++ C).map (·.2)).map List.length := by
    rw [List.map_append, List.map_append, List.map_append, List.map_replicate, List.map_replicate, List.map_map,
      List.map_map]
    simp only [Bool.false_eq_true, if_false, if_true]
    congr 1
    · symm
      rw [List.eq_replicate_iff]
      refine ⟨by simp, ?_⟩
      intro b hb
      obtain ⟨e, he, rfl⟩ := List.mem_map.1 hb
      exact (hPl e he).1
    · symm
      rw [List.eq_replicate_iff]
      refine ⟨by simp, ?_⟩
      intro b hb
      obtain ⟨e, he, rfl⟩ := List.mem_map.1 hb
      exact (hCl e he).1
  rw [hsizes, tecValues, if_pos rfl, blockNumbers_tables, ok_bind]
  · simp only
    rw [if_neg, npSplit_flatten (by simp [hPne])]
    cases P with
    | nil => exact absurd rfl hPne
    | cons e P =>
      intro h0
      have h1 := (hPl e (by simp)).1
      have : e.2 = [] := by
        rw [List.flatten_eq_nil_iff] at h0
        exact h0 e.2 (by simp)
      rw [this] at h1
      exact hn0 h1.symm
  · intro e he
    rcases List.mem_append.1 he with he | he
    · exact (hPl e he).2
    · exact (hCl e he).2

theorem zoneRead_eq {flat : Bool} {np nc : ℕ} {P C : List (Str × List Flt)} {points : List (P3 Flt)} {Q : List (Str × List Flt)}
    (hP : joinNames P = tecCoords flat points ++ Q)
    (hXn : (["X".toList, "Y".toList, "Z".toList] ++ Q.map (·.1)).Nodup) (hz : ['z'] ∉ Q.map (·.1))
    (hn0 : np ≠ 0)
    (hPl : ∀ e ∈ P, e.2.length = np ∧ ∀ x ∈ e.2, IsDouble x) (hCl : ∀ e ∈ C, e.2.length = nc ∧ ∀ x ∈ e.2, IsDouble x)
    (hd : ((joinNames (P ++ C)).map (·.1)).Nodup)
    {ty : Str} {shape : CellType} (hty : dictGet tecTypes ty = .ok shape) {z : Zone}
    (z1 : fezoneFormat z = .ok ("FEBLOCK".toList, ty)) (z2 : fezoneCount z "N".toList "NODES".toList = .ok np)
    (z3 : fezoneCount z "E".toList "ELEMENTS".toList = .ok nc)
    (z4 : fezoneCentered z "FEBLOCK".toList (P.length + C.length) =
      .ok (List.replicate P.length false ++ List.replicate C.length true))
    {cells : List (List ℕ)} (hc : cells.length = nc) (hc0 : cells ≠ []) {w : ℕ} (hw : w ≠ 0)
    (hcw : ∀ c ∈ cells, c.length = w) :
    tecZoneRead ((P ++ C).map fun e => wordsJoined e.1) z ((P ++ C).flatMap (fun e => tecTable e.2) ++
      cells.map fun c => spacedLine (c.map fun v => natStr (v + 1))) =
      .ok ⟨points.map (coordsOf flat), shape, cells.map fun c => c.map fun v : ℕ => (v : ℤ), Q, renameMaterial (joinNames C)⟩ := by
  have hlen : ((P ++ C).map fun e => wordsJoined e.1).length = P.length + C.length := by simp
  have hPne : P ≠ [] := by
    rintro rfl
    simp [joinNames, tecCoords] at hP
  have hrows := cellRows_lines (cs := cells) fun c hc => by
    intro h0
    have := hcw c hc
    rw [h0] at this
    exact hw this.symm
  rw [hc] at hrows
  have hrect : rectangular (cells.map fun c => c.map fun v : ℕ => ((v + 1 : ℕ) : ℤ)) = true := by
    apply rectangular_of (n := w)
    intro r hr
    obtain ⟨c, hc, rfl⟩ := List.mem_map.1 hr
    simp [hcw c hc]
  have hdata : updateDict [] (((P ++ C).map fun e => wordsJoined e.1).zip ((P ++ C).map (·.2))) =
      joinNames P ++ joinNames C := by
    rw [zip_joinNames, updateDict_nil_of_nodup _ hd]
    exact List.map_append
  have hd2 : ((joinNames P ++ joinNames C).map (·.1)).Nodup := by
    have : joinNames P ++ joinNames C = joinNames (P ++ C) := List.map_append.symm
    rw [this]
    exact hd
  have hnames : ((P ++ C).map fun e => wordsJoined e.1) = (joinNames P ++ joinNames C).map (·.1) := by
    have : joinNames P ++ joinNames C = joinNames (P ++ C) := List.map_append.symm
    rw [this, joinNames, List.map_map]
    rfl
  have hshare : tecShare (joinNames P ++ joinNames C)
      ((List.replicate P.length false ++ List.replicate C.length true).zip ((P ++ C).map fun e => wordsJoined e.1)) [] [] =
      .ok (joinNames P, joinNames C) := by
    have := tecShare_eq hd2
    rw [← hnames] at this
    simpa only [joinNames, List.length_map] using this
  rw [tecZoneRead, z1, ok_bind]
  simp only
  rw [z2, ok_bind, z3, ok_bind, hlen, z4, ok_bind, tecValues_eq hPne hn0 hPl hCl, ok_bind]
  simp only
  rw [hrows, ok_bind, if_neg (by rw [hrect]; simp [hc0]), hdata, hshare, ok_bind]
  simp only
  rw [hP, tecPoints_coords flat points hXn hz, ok_bind]
  simp only
  rw [hty, ok_bind, List.map_map]
  congr 3
  funext c
  simp

theorem cellRows_short {cs : List (List ℕ)} (h : ∀ c ∈ cs, c ≠ []) {n : ℕ} (hn : cs.length < n) :
    cellRows n (cs.map fun c => spacedLine (c.map fun v => natStr (v + 1))) = .error .diverges := by
  induction cs generalizing n with
  | nil =>
    obtain ⟨k, rfl⟩ : ∃ k, n = k + 1 := ⟨n - 1, by simp at hn; omega⟩
    rfl
  | cons c cs ih =>
    obtain ⟨k, rfl⟩ : ∃ k, n = k + 1 := ⟨n - 1, by simp at hn; omega⟩
    have hw : words (strip (spacedLine (c.map fun v => natStr (v + 1)))) = c.map fun v => natStr (v + 1) := by
      apply words_line
      intro t ht
      obtain ⟨v, _, rfl⟩ := List.mem_map.1 ht
      exact word_natStr _
    rw [List.map_cons, cellRows, hw, if_neg (by simpa using h c (by simp)), List.mapM_map,
      mapM_ok (f := toInt ∘ fun v => natStr (v + 1)) (g := fun v : ℕ => ((v + 1 : ℕ) : ℤ))
        (fun v _ => toInt_natStr (v + 1)), ok_bind,
      ih (fun c hc => h c (by simp [hc])) (by simp at hn; omega)]
    rfl

/-- With some cells missing the loop does not end. -/
theorem zoneRead_short {np nc : ℕ} {P C : List (Str × List Flt)} (hPne : P ≠ []) (hn0 : np ≠ 0)
    (hPl : ∀ e ∈ P, e.2.length = np ∧ ∀ x ∈ e.2, IsDouble x) (hCl : ∀ e ∈ C, e.2.length = nc ∧ ∀ x ∈ e.2, IsDouble x)
    {ty : Str} {z : Zone}
    (z1 : fezoneFormat z = .ok ("FEBLOCK".toList, ty)) (z2 : fezoneCount z "N".toList "NODES".toList = .ok np)
    (z3 : fezoneCount z "E".toList "ELEMENTS".toList = .ok nc)
    (z4 : fezoneCentered z "FEBLOCK".toList (P.length + C.length) =
      .ok (List.replicate P.length false ++ List.replicate C.length true))
    {cells : List (List ℕ)} (hc : cells.length < nc) (hc0 : ∀ c ∈ cells, c ≠ []) :
    tecZoneRead ((P ++ C).map fun e => wordsJoined e.1) z ((P ++ C).flatMap (fun e => tecTable e.2) ++
      cells.map fun c => spacedLine (c.map fun v => natStr (v + 1))) = .error .diverges := by
  have hlen : ((P ++ C).map fun e => wordsJoined e.1).length = P.length + C.length := by simp
  rw [tecZoneRead, z1, ok_bind]
  simp only
  rw [z2, ok_bind, z3, ok_bind, hlen, z4, ok_bind, tecValues_eq hPne hn0 hPl hCl, ok_bind]
  simp only
  rw [cellRows_short hc0 hc]
  rfl

theorem allPoint_facts (flat : Bool) {m : AvsMesh} (h : TecMeshOk m) :
    ∀ e ∈ allPoint flat m, e.2.length = m.points.length ∧ ∀ x ∈ e.2, IsDouble x := by
  intro e he
  have hx : ∀ f : P3 Flt → Flt, (∀ p ∈ m.points, IsDouble (f p)) →
      (m.points.map f).length = m.points.length ∧ ∀ x ∈ m.points.map f, IsDouble x := by
    intro f hf
    refine ⟨by simp, fun x hx => ?_⟩
    obtain ⟨p, hp, rfl⟩ := List.mem_map.1 hx
    exact hf p hp
  rcases List.mem_append.1 he with he | he
  · simp only [tecCoords, List.mem_cons] at he
    rcases he with rfl | rfl | he
    · exact hx _ fun p hp => (h.points p hp).1
    · exact hx _ fun p hp => (h.points p hp).2.1
    · cases flat with
      | true => simp at he
      | false =>
        simp only [Bool.false_eq_true, if_false, List.mem_singleton] at he
        subst he
        exact hx _ fun p hp => (h.points p hp).2.2
  · obtain ⟨a, ha, he⟩ := List.mem_flatMap.1 he
    have := h.pointShape a (List.mem_filter.1 ha).1
    exact variable_facts this.1 this.2 e he

theorem pointVariables_z {m : AvsMesh} (h : TecMeshOk m) : ['z'] ∉ (joinNames (pointVariables m)).map (·.1) := by
  intro hm
  obtain ⟨e', he', h1⟩ := List.mem_map.1 hm
  obtain ⟨e, he, rfl⟩ := List.mem_map.1 he'
  have hn := h.names e (List.mem_append.2 (.inl he))
  simp only at h1
  have hez : e.1 = ['z'] := by
    rcases two_words hn.1 hn.2.1 with h0 | h0 | ⟨a, b, sp, ha, hb, hs, hsp, h0⟩
    · rw [h0] at h1
      exact absurd h1 (by decide)
    · have : words e.1 = [e.1] := words_word h0
      rw [wordsJoined, this] at h1
      simpa using h1
    · exfalso
      have : words e.1 = [a, b] := by rw [h0]; exact words_pair ha hb hs hsp
      rw [wordsJoined, this] at h1
      have := congrArg List.length h1
      have h2 := List.length_pos_of_ne_nil ha.1
      simp at this
      omega
  obtain ⟨a, ha, hv⟩ := List.mem_flatMap.1 he
  have hc := of_decide_eq_true (List.mem_filter.1 ha).2
  unfold variablesOf at hv
  split at hv
  · rw [List.mem_singleton] at hv
    rw [hv] at hez
    exact hc (by simp only at hez; rw [hez]; decide)
  · obtain ⟨i, -, rfl⟩ := List.mem_map.1 hv
    have := congrArg List.length hez
    have h2 := List.length_pos_of_ne_nil (Verif.Py.natStr_ne_nil i)
    simp at this
    omega

theorem cellVariables_facts {m : AvsMesh} (h : TecMeshOk m) :
    ∀ e ∈ cellVariables m, e.2.length = (tecCells m.cells).length ∧ ∀ x ∈ e.2, IsDouble x := by
  intro e he
  obtain ⟨a, ha, he⟩ := List.mem_flatMap.1 he
  have := h.cellShape a (List.mem_filter.1 ha).1
  exact variable_facts (tecRowsOf_length this.1) (fun r hr => this.2 r (mem_tecRowsOf hr)) e he

/-- The table starts with a digit, so that the zone ends before it. -/
theorem data_first (flat : Bool) {m : AvsMesh} (h : TecMeshOk m) (rest : List Str) :
    zoneMore ((allPoint flat m ++ cellVariables m).flatMap (fun e => tecTable e.2) ++ rest) =
      ([], (allPoint flat m ++ cellVariables m).flatMap (fun e => tecTable e.2) ++ rest) := by
  obtain ⟨mag, y, zc, ps, hp⟩ := h.first
  have hdouble : IsDouble (.fin false mag) := (h.points ⟨.fin false mag, y, zc⟩ (by rw [hp]; simp)).1
  have : ∃ r, allPoint flat m ++ cellVariables m = ("X".toList, Flt.fin false mag :: ps.map (·.x)) :: r := by
    rw [allPoint, tecCoords, hp]
    exact ⟨_, rfl⟩
  obtain ⟨r, hr⟩ := this
  rw [hr]
  exact tables_first hdouble _ _ _ _

/-- The zone part of a written file, whatever the cells after the data. -/
theorem read_to_data (flat : Bool) (version : Str) {m : AvsMesh} (h : TecMeshOk m) {ty : Str} (hty : ty ∈ zoneNames)
    {data : List Str} (hfirst : zoneMore data = ([], data)) :
    ∃ z, fezoneFormat z = .ok ("FEBLOCK".toList, ty) ∧
      fezoneCount z "N".toList "NODES".toList = .ok m.points.length ∧
      fezoneCount z "E".toList "ELEMENTS".toList = .ok (tecCells m.cells).length ∧
      fezoneCentered z "FEBLOCK".toList ((allPoint flat m).length + (cellVariables m).length) =
        .ok (List.replicate (allPoint flat m).length false ++ List.replicate (cellVariables m).length true) ∧
      readTecMesh (("TITLE = \"Written by toughio v".toList ++ version ++ ['"', '\n']) ::
        ("VARIABLES = ".toList ++ quotedNames ((allPoint flat m ++ cellVariables m).map (·.1)) ++ ['\n']) ::
        (tecZoneLines m.points.length (tecCells m.cells).length (allPoint flat m).length (cellVariables m).length ty ++
          data)) =
      tecZoneRead ((allPoint flat m ++ cellVariables m).map fun e => wordsJoined e.1) z data := by
  obtain ⟨z, hz, z1, z2, z3, z4⟩ := zone_written m.points.length (tecCells m.cells).length (allPoint flat m).length
    (cellVariables m).length hty
  refine ⟨z, z1, z2, z3, z4, ?_⟩
  have htitle : ∃ s, strip ("TITLE = \"Written by toughio v".toList ++ version ++ ['"', '\n']) =
      "TITLE".toList ++ s := by
    refine ⟨" = \"Written by toughio v".toList ++ version ++ ['"'], ?_⟩
    have e : "TITLE = \"Written by toughio v".toList ++ version ++ ['"', '\n'] =
      ("TITLE = \"Written by toughio v".toList ++ version ++ ['"']) ++ ['\n'] := by simp
    rw [e, strip_line]
    · rfl
    · intro c hc
      have : c = 'T' := by simpa using hc.symm
      rw [this]; decide
    · intro c hc
      rw [List.getLast?_append_of_ne_nil _ (by simp)] at hc
      have : c = '"' := by simpa using hc.symm
      rw [this]; decide
  obtain ⟨s, hs⟩ := htitle
  have ht : ∀ p : Str, p = "VARIABLES".toList ∨ p = "ZONE".toList →
      startsWith (upper ("TITLE".toList ++ s)) p = false := by
    intro p hp
    rw [upper_append, show upper "TITLE".toList = "TITLE".toList by decide]
    rcases hp with rfl | rfl <;> simp [startsWith, List.isPrefixOf]
  obtain ⟨v1, v2⟩ := variables_read flat (names := (pointVariables m ++ cellVariables m).map (·.1)) (by
    intro n hn
    obtain ⟨e, he, rfl⟩ := List.mem_map.1 hn
    exact h.names e he)
  have hnames : (allPoint flat m ++ cellVariables m).map (·.1) =
      coordNames flat ++ (pointVariables m ++ cellVariables m).map (·.1) := by
    rw [allPoint, List.append_assoc, List.map_append, tecCoords_names]
  have hjoined : coordNames flat ++ ((pointVariables m ++ cellVariables m).map (·.1)).map wordsJoined =
      (allPoint flat m ++ cellVariables m).map fun e => wordsJoined e.1 := by
    have e := congrArg (List.map wordsJoined) hnames
    rw [List.map_append (l₁ := coordNames flat), coordNames_joined] at e
    rw [← e, List.map_map]
    rfl
  obtain ⟨l0, ls, more, e1, e2, e3, e4, e5⟩ := zone_lines m.points.length (tecCells m.cells).length (allPoint flat m).length
    (cellVariables m).length hty hfirst
  rw [readTecMesh, tecMeshLoop]
  simp only [hs, ht _ (.inl rfl), ht _ (.inr rfl), Bool.false_eq_true, if_false]
  rw [if_neg (by simp), tecMeshLoop]
  simp only [hnames]
  rw [if_pos v1, v2, ok_bind, hjoined, e1, List.cons_append, tecMeshLoop]
  simp only [e3, e4, Bool.false_eq_true, if_false, if_true]
  rw [e2]
  simp only
  rw [e5, hz, ok_bind]

theorem read_to_zone (flat : Bool) (version : Str) {m : AvsMesh} (h : TecMeshOk m) {ty : Str} (hty : ty ∈ zoneNames)
    (rest : List Str) :
    ∃ z, fezoneFormat z = .ok ("FEBLOCK".toList, ty) ∧
      fezoneCount z "N".toList "NODES".toList = .ok m.points.length ∧
      fezoneCount z "E".toList "ELEMENTS".toList = .ok (tecCells m.cells).length ∧
      fezoneCentered z "FEBLOCK".toList ((allPoint flat m).length + (cellVariables m).length) =
        .ok (List.replicate (allPoint flat m).length false ++ List.replicate (cellVariables m).length true) ∧
      readTecMesh (("TITLE = \"Written by toughio v".toList ++ version ++ ['"', '\n']) ::
        ("VARIABLES = ".toList ++ quotedNames ((allPoint flat m ++ cellVariables m).map (·.1)) ++ ['\n']) ::
        (tecZoneLines m.points.length (tecCells m.cells).length (allPoint flat m).length (cellVariables m).length ty ++
          (allPoint flat m ++ cellVariables m).flatMap (fun e => tecTable e.2) ++ rest)) =
      tecZoneRead ((allPoint flat m ++ cellVariables m).map fun e => wordsJoined e.1) z
        ((allPoint flat m ++ cellVariables m).flatMap (fun e => tecTable e.2) ++ rest) := by
  obtain ⟨z, z1, z2, z3, z4, hz⟩ := read_to_data flat version h hty (data_first flat h rest)
  refine ⟨z, z1, z2, z3, z4, ?_⟩
  rw [← hz, List.append_assoc (tecZoneLines _ _ _ _ _)]

end Verif.Mesh
