import Verif.Lemmas.MeshAgain
import Verif.Props.MeshWrite
import Verif.Props.Again

/-!
# Properties of the two writers of MESH and INCON (C94)
-/

set_option linter.unusedSimpArgs false

namespace Verif.Props
open Verif.Py Verif.Model Verif.Spec

/-! ## C94: the files of a mesh and the writer of input files -/

/-- C94, partial (missing: names that have not been filled up, see `C61_short_name_violated`).
The writer of meshes and the writer of input files produce the same MESH file for the same cells
and connections, except that the second one fills the records with blanks up to 80 columns. -/
theorem C94_mesh_writers_partial (L : ℕ) (names : List (Material × Material)) (ends : List Material)
    (coord : Bool) (cells : List MeshCell) (conns : List MeshConn) (p : Params)
    (hp : GivesMesh names ends coord cells conns p)
    (hn : ∀ e ∈ names, Filled e.1 ∧ bare e.2 = e.2) (he : ∀ m ∈ ends, Filled m)
    (hl : LabelsOk L (cells.map (·.label))) (hf : ∀ c ∈ cells, CellFits names coord c)
    (hc : ConnsGood L conns) (hcf : ∀ c ∈ conns, MeshConnFits c) :
    ∃ lines lines', meshFile names ends coord cells conns = .ok lines ∧
      writeFile p "mesh" = .ok lines' ∧ SameFile lines lines' := by
  obtain ⟨lines, lines', h1, h2, h3⟩ := meshParts_same hp hn he hl hf hc hcf
  exact ⟨lines, lines', h1, writeFile_of (by decide) (.inl hp.eos) (by rw [selected_mesh, h2]), h3⟩

theorem twoConns_formed : ∀ c ∈ twoConns, WellFormed 5 c.label1 ∧ WellFormed 5 c.label2 := by
  intro c hc
  have := threeCells_formed
  simp only [twoConns, List.mem_cons, List.not_mem_nil, or_false] at hc
  rcases hc with rfl | rfl
  · exact ⟨this _ (by simp), this _ (by simp)⟩
  · exact ⟨this _ (by simp), this _ (by simp)⟩

/-- The parameters that describe the cells `threeCells`. -/
def threeParams : Params := { noParams with
  elements := (fileOrder [.name "SAND ".toList] threeCells).map fun c => (.str c.label, cellElem [] c)
  coordinates := true
  connections := twoConns.map fun c => (.str (c.label1 ++ c.label2), connEntry c) }

theorem threeParams_describes :
    GivesMesh [] [.name "SAND ".toList] true threeCells twoConns threeParams :=
  ⟨rfl, rfl, rfl, rfl, rfl, rfl⟩

example : GivesMesh [] [.name "SAND ".toList] true threeCells twoConns threeParams ∧
    LabelsOk 5 (threeCells.map (·.label)) ∧ (∀ c ∈ threeCells, CellFits [] true c) ∧
    (∀ m ∈ [Material.name "SAND ".toList], Filled m) ∧
    ConnsGood 5 twoConns ∧ (∀ c ∈ twoConns, MeshConnFits c) ∧
    threeParams.elements.map (·.1) = [.str "A1101".toList, .str "A1102".toList, .str "A1100".toList] :=
  ⟨threeParams_describes, ⟨by decide, by decide, by decide, threeCells_formed, by decide⟩,
    by decide +kernel, by decide, ⟨by decide, by decide, by decide, twoConns_formed, by decide⟩,
    by decide +kernel, by decide⟩

/-- C94, partial (missing: as in `C94_mesh_writers_partial`; centres whose digits in ELEME
depend on the digits that COORD drops, see `C94_violated`). If the MESH file of a mesh is loaded
and saved by the writer of input files, the file stays the same up to blanks at the ends of the
records. -/
theorem C94_mesh_again_partial (given : Option ℕ) (L : ℕ) (hg : given = none ∨ given = some L)
    (names : List (Material × Material)) (ends : List Material) (coord : Bool)
    (cells : List MeshCell) (conns : List MeshConn)
    (hn : ∀ e ∈ names, Filled e.1 ∧ bare e.2 = e.2) (he : ∀ m ∈ ends, Filled m)
    (hl : LabelsOk L (cells.map (·.label))) (hf : ∀ c ∈ cells, CellFits names coord c)
    (hc : ConnsGood L conns) (hcf : ∀ c ∈ conns, MeshConnFits c)
    (ht : ∀ c ∈ cells, CellTame coord c) (hct : ∀ c ∈ conns, MeshConnTame c) :
    ∃ lines r lines', meshFile names ends coord cells conns = .ok lines ∧
      readFile given lines = .ok r ∧ writeFile r.params "mesh" = .ok lines' ∧
      SameFile lines lines' := by
  let p : Params := { noParams with
    elements := (fileOrder ends cells).map fun c => (.str c.label, cellElem names c)
    coordinates := coord
    connections := conns.map fun c => (.str (c.label1 ++ c.label2), connEntry c) }
  have hp : GivesMesh names ends coord cells conns p := ⟨rfl, rfl, rfl, rfl, rfl, rfl⟩
  obtain ⟨lines, h1, h2⟩ := C61_file_partial given L hg names ends coord cells conns hn he hl hf hc hcf
  obtain ⟨lines₁, lines', g1, g2, g3⟩ := meshParts_same hp hn he hl hf hc hcf
  rw [h1] at g1
  injection g1 with g1
  subst g1
  refine ⟨lines, _, lines', h1, h2, writeFile_of (by decide) (.inl rfl) ?_, g3⟩
  rw [selected_mesh, meshParts_again hp hl hf hc hcf ht hct, g2]

example : (∀ c ∈ threeCells, CellTame true c) ∧ ∀ c ∈ twoConns, MeshConnTame c := by decide +kernel

/-- The MESH file of a mesh, and the file that is saved once it was loaded. -/
def resaveMesh (coord : Bool) (cells : List MeshCell) (conns : List MeshConn) :
    Except PyErr (List Str × List Str) := do
  let lines ← meshFile [] [] coord cells conns
  let r ← readFile none lines
  let lines' ← writeFile r.params "mesh"
  .ok (lines, lines')

/-- A cell whose centre is rounded twice. -/
def twiceRounded : List MeshCell :=
  [⟨"A1100".toList, .name "SAND".toList, .fin false 1000, false, .fin false (1023.5 - 1 / 2 ^ 42),
      .fin true (5 / 2), .fin false 0⟩,
    ⟨"A1101".toList, .name "SAND".toList, .fin false 20, false, .fin false 1, .fin true (5 / 2), .fin false 0⟩]

/-- C94, violated. A centre that is written in both ELEME and COORD is rounded twice when the file
is loaded and saved: its digits in ELEME change. Without COORD they do not. -/
theorem C94_violated : ∃ (cells : List MeshCell) (conns : List MeshConn) (lines lines' : List Str),
    (∀ c ∈ cells, CellFits [] true c) ∧ resaveMesh true cells conns = .ok (lines, lines') ∧
      ¬ SameFile lines lines' ∧
      ∃ lines₁ lines₁', resaveMesh false cells conns = .ok (lines₁, lines₁') ∧ SameFile lines₁ lines₁' := by
  have h : ∃ x, resaveMesh true twiceRounded (twoConns.take 1) = .ok x ∧
      ¬ SameLine (x.1.getD 1 []) (x.2.getD 1 []) ∧ 1 < x.1.length ∧ 1 < x.2.length := by
    have : (resaveMesh true twiceRounded (twoConns.take 1)).toOption.any (fun x =>
        decide (¬ SameLine (x.1.getD 1 []) (x.2.getD 1 []) ∧ 1 < x.1.length ∧ 1 < x.2.length)) = true := by
      decide +kernel
    cases hr : resaveMesh true twiceRounded (twoConns.take 1) with
    | error e => rw [hr] at this; cases this
    | ok x => rw [hr] at this; exact ⟨x, rfl, of_decide_eq_true this⟩
  obtain ⟨⟨lines, lines'⟩, hr, hs, h1, h2⟩ := h
  have ht := C94_mesh_again_partial none 5 (.inl rfl) [] [] false twiceRounded (twoConns.take 1)
    (by simp) (by simp) ⟨by decide, by decide, by decide, fun s hs =>
      threeCells_formed s (by revert s; decide), by decide⟩ (by decide +kernel)
    ⟨by decide, by decide, by decide, fun c hc => twoConns_formed c (List.mem_of_mem_take hc), by decide⟩
    (by decide +kernel) (by decide +kernel) (by decide +kernel)
  obtain ⟨l1, r, l2, a1, a2, a3, a4⟩ := ht
  refine ⟨twiceRounded, twoConns.take 1, lines, lines', by decide +kernel, hr, ?_, l1, l2, ?_, a4⟩
  · intro hsame
    apply hs
    have := List.Forall₂.get hsame h1 h2
    simpa [List.getElem?_eq_getElem h1, List.getElem?_eq_getElem h2] using this
  · unfold resaveMesh
    rw [a1, ok_bind, a2, ok_bind, a3, ok_bind]

/-- C94, partial (missing: as in `C62_file_partial`). The writer of meshes and the writer of input
files produce the same INCON file for the same initial conditions, except that the second one fills
the records with blanks up to 80 columns. -/
theorem C94_incon_writers_partial (L : ℕ) (cells : List MeshIncon) (p : Params)
    (hp : GivesIncon cells p) (hl : LabelsOk L (cells.map (·.label)))
    (hf : ∀ c ∈ cells, MeshInconFits c) (hn : ∀ c ∈ cells, ∀ v ∈ c.values, NotNegative v)
    (hs : ∃ c ∈ cells, HasIncon c) :
    ∃ lines lines', meshIncon cells = .ok lines ∧ writeFile p "incon" = .ok lines' ∧
      SameFile lines lines' := by
  obtain ⟨lines, lines', h1, h2, h3⟩ := inconParts_same hp hl hf hn hs
  exact ⟨lines, lines', h1, writeFile_of (by decide) (.inl hp.eos) (by rw [selected_incon, h2]), h3⟩

example : GivesIncon threeIncons { noParams with
      initialConditions := threeIncons.map fun c => (.str c.label, inconEntry c) } ∧
    LabelsOk 5 (threeIncons.map (·.label)) ∧ (∀ c ∈ threeIncons, MeshInconFits c) ∧
    (∀ c ∈ threeIncons, ∀ v ∈ c.values, NotNegative v) ∧ (∃ c ∈ threeIncons, HasIncon c) :=
  ⟨⟨by decide +kernel, rfl, rfl⟩, ⟨by decide, by decide, by decide, threeCells_formed, by decide⟩,
    by decide +kernel, by decide +kernel, by decide +kernel⟩

/-- C94, partial (missing: as in `C62_file_partial`). If the INCON file of a mesh is loaded and
saved by the writer of input files, the file stays the same up to blanks at the ends of the
records. -/
theorem C94_incon_again_partial (given : Option ℕ) (L : ℕ) (hg : given = none ∨ given = some L)
    (cells : List MeshIncon) (n : ℕ) (hl : LabelsOk L (cells.map (·.label)))
    (hv : ∀ c ∈ cells, c.values.length = n) (hf : ∀ c ∈ cells, MeshInconFits c)
    (hn : ∀ c ∈ cells, ∀ v ∈ c.values, NotNegative v) (hs : ∃ c ∈ cells, HasIncon c)
    (ht : ∀ c ∈ cells, MeshInconTame c) :
    ∃ lines r lines', meshIncon cells = .ok lines ∧ readFile given lines = .ok r ∧
      writeFile r.params "incon" = .ok lines' ∧ SameFile lines lines' := by
  let p : Params := { noParams with
    initialConditions := (cells.filter fun c => decide (HasIncon c)).map fun c => (.str c.label, inconEntry c) }
  have hp : GivesIncon cells p := ⟨rfl, rfl, rfl⟩
  obtain ⟨lines, h1, h2⟩ := C62_file_partial given L hg cells n hl hv hf hn hs
  obtain ⟨lines₁, lines', g1, g2, g3⟩ := inconParts_same hp hl hf hn hs
  rw [h1] at g1
  injection g1 with g1
  subst g1
  refine ⟨lines, _, lines', h1, h2, writeFile_of (by decide) (.inl rfl) ?_, g3⟩
  rw [selected_incon, inconParts_again hp hl hv hf hs ht, g2]

example : ∀ c ∈ threeIncons, MeshInconTame c := by decide +kernel

end Verif.Props
