import Verif.Spec.MeshObject
import Verif.Lemmas.Meshio
import Verif.Lemmas.CurveObjects
import Verif.Lemmas.ReadOutput
import Verif.Props.MeshWrite

/-!
# C79: the mesh object
-/

namespace Verif.Props
open Verif.Py Verif.Model Verif.Mesh Verif.Spec Verif.Lemmas

/-! ## Cells -/

/-- C79. Cells are returned as they were set, as blocks or as a dictionary; a dictionary is
also returned as blocks. -/
theorem C79_cells (l : List CellBlock) (d : OldCells) :
    getCells (setCells (.blocks l)) = l ∧ getCellsDict (setCells (.dict d)) = .ok d ∧
      getCells (setCells (.dict d)) = d.map fun e => ⟨e.1, e.2⟩ := by
  refine ⟨?_, rfl, rfl⟩
  cases l <;> rfl

/-- C79. Blocks are also returned as a dictionary, if the cells of a type have the same number
of vertices: for each type its cells in order. -/
theorem C79_cells_dict (l : List CellBlock)
    (hr : ∀ a ∈ typedCells l, ∀ b ∈ typedCells l, a.1 = b.1 → a.2.length = b.2.length) :
    ∃ d, getCellsDict (setCells (.blocks l)) = .ok d ∧ ByType l d := by
  have hmem : ∀ t c, c ∈ (l.filter fun b => b.type = t).flatMap (·.data) → (t, c) ∈ typedCells l := by
    intro t c hc
    obtain ⟨b, hb, hx⟩ := List.mem_flatMap.1 hc
    obtain ⟨hb, ht⟩ := List.mem_filter.1 hb
    refine List.mem_flatMap.2 ⟨b, hb, List.mem_map.2 ⟨c, hx, ?_⟩⟩
    rw [← of_decide_eq_true ht]
  have hrect : ∀ t, rectangular ((l.filter fun c => c.type = t).flatMap (·.data)) = true := by
    intro t
    cases hx : (l.filter fun c => c.type = t).flatMap (·.data) with
    | nil => rfl
    | cons c r =>
      rw [← hx]
      refine rectangular_of (n := c.length) fun y hy => ?_
      exact hr _ (hmem t y hy) _ (hmem t c (by rw [hx]; simp)) rfl
  have hfil : ∀ t, ((typedCells l).filter (·.1 = t)).map (·.2) = (l.filter fun c => c.type = t).flatMap (·.data) := by
    intro t
    unfold typedCells
    clear hr hmem hrect
    induction l with
    | nil => rfl
    | cons b l ih =>
      rw [List.flatMap_cons, List.filter_append, List.map_append, ih]
      by_cases hb : b.type = t
      · rw [List.filter_cons_of_pos (by simpa using hb), List.flatMap_cons]
        congr 1
        rw [List.filter_eq_self.2, List.map_map]
        · exact List.map_id _
        · intro e he
          obtain ⟨c, -, rfl⟩ := List.mem_map.1 he
          simpa using hb
      · rw [List.filter_cons_of_neg (by simpa using hb), List.filter_eq_nil_iff.2]
        · rfl
        · intro e he
          obtain ⟨c, -, rfl⟩ := List.mem_map.1 he
          simpa using hb
  refine ⟨(grouped l).map fun c => (c.type, c.data), ?_, ?_⟩
  · cases l with
    | nil => rfl
    | cons b l =>
      unfold getCellsDict
      rw [if_pos (by simp [setCells])]
      exact oldCells_ok hrect
  · have hk : ((grouped l).map fun c => (c.type, c.data)).map (·.1) = firsts (l.map (·.type)) := by
      unfold grouped
      rw [List.map_map, List.map_map]
      exact List.map_id _
    refine ⟨?_, ?_, ?_⟩
    · rw [hk]
      exact firsts_nodup _
    · rw [hk]
      exact firsts_sublist _
    · intro t cs
      rw [hfil]
      constructor
      · intro h
        obtain ⟨c, hc, he⟩ := List.mem_map.1 h
        obtain ⟨t', ht, rfl⟩ := List.mem_map.1 hc
        cases he
        exact ⟨mem_firsts.1 ht, rfl⟩
      · rintro ⟨ht, rfl⟩
        exact List.mem_map.2 ⟨_, List.mem_map.2 ⟨t, mem_firsts.2 ht, rfl⟩, rfl⟩

example : ∃ l : List CellBlock, l.length = 3 ∧ (∀ a ∈ typedCells l, ∀ b ∈ typedCells l, a.1 = b.1 → a.2.length = b.2.length) ∧
    getCellsDict (setCells (.blocks l)) = .ok [(.triangle, [[0, 1, 2], [2, 1, 0]]), (.quad, [[0, 1, 2, 3]])] :=
  ⟨[⟨.triangle, [[0, 1, 2]]⟩, ⟨.quad, [[0, 1, 2, 3]]⟩, ⟨.triangle, [[2, 1, 0]]⟩], rfl, by decide, by decide⟩

/-! ## Text -/

/-- C79. The text of a mesh: the number of points, the type and the number of cells of each
block, and the names of sets and data, where there are any. -/
theorem C79_text {K D : Type} (m : Mesh.Mesh K D) (sets : List Str) (ht : ∀ c ∈ m.cells, '\n' ∉ typeText c.type)
    (hs : ∀ s ∈ sets, '\n' ∉ s) (hp : ∀ e ∈ m.pointData, '\n' ∉ e.1) (hc : ∀ e ∈ m.cellData, '\n' ∉ e.1) :
    splitOn '\n' (meshText m sets) =
      ["<toughio mesh object>".toList, "  Number of points: ".toList ++ natStr m.points.length] ++
      (if m.cells = [] then ["  No cells.".toList] else "  Number of cells:".toList ::
        m.cells.map fun c => "    ".toList ++ typeText c.type ++ ": ".toList ++ natStr c.data.length) ++
      (if sets = [] then [] else ["  Point sets: ".toList ++ ", ".toList.intercalate sets]) ++
      (if m.pointData = [] then [] else ["  Point data: ".toList ++ ", ".toList.intercalate (m.pointData.map (·.1))]) ++
      (if m.cellData = [] then [] else ["  Cell data: ".toList ++ ", ".toList.intercalate (m.cellData.map (·.1))]) := by
  have hj : ∀ l : List Str, joinComma l = ", ".toList.intercalate l := by
    intro l
    induction l with
    | nil => rfl
    | cons a l ih =>
      cases l with
      | nil => simp [joinComma, List.intercalate]
      | cons b l =>
        rw [joinComma, ih]
        · simp [List.intercalate, List.append_assoc]
        · simp
  have happ : ∀ {a b : Str}, '\n' ∉ a → '\n' ∉ b → '\n' ∉ a ++ b := fun h1 h2 h => (List.mem_append.1 h).elim h1 h2
  have hnat : ∀ n : ℕ, '\n' ∉ natStr n := fun n => natStr_notMem n (by decide)
  have hjn : ∀ l : List Str, (∀ s ∈ l, '\n' ∉ s) → '\n' ∉ joinComma l := by
    intro l hl
    induction l with
    | nil => simp [joinComma]
    | cons a l ih =>
      have ha := hl a (by simp)
      have ih := ih fun s hs => hl s (by simp [hs])
      cases l with
      | nil => exact ha
      | cons b l =>
        rw [joinComma]
        · exact happ (happ ha (by decide +kernel)) ih
        · simp
  have hnl : ∀ (t : String) (l : List Str), '\n' ∉ t.toList → (∀ s ∈ l, '\n' ∉ s) → ∀ x ∈ namesLine t l, '\n' ∉ x := by
    intro t l ht hl x hx
    unfold namesLine at hx
    split at hx
    · simp at hx
    · rw [List.mem_singleton] at hx
      subst hx
      exact happ ht (hjn l hl)
  have hname : ∀ (t : String) (l : List Str), namesLine t l = if l = [] then [] else [t.toList ++ ", ".toList.intercalate l] := by
    intro t l
    unfold namesLine
    rw [hj]
  have hcells : (if 0 < m.cells.length
      then "  Number of cells:".toList ::
        m.cells.map fun c => "    ".toList ++ typeText c.type ++ ": ".toList ++ natStr c.data.length
      else ["  No cells.".toList]) = if m.cells = [] then ["  No cells.".toList] else "  Number of cells:".toList ::
        m.cells.map fun c => "    ".toList ++ typeText c.type ++ ": ".toList ++ natStr c.data.length := by
    by_cases h : m.cells = []
    · rw [if_pos h, if_neg (by rw [h]; exact Nat.lt_irrefl 0)]
    · rw [if_neg h, if_pos (List.length_pos_iff.2 h)]
  unfold meshText
  simp only
  rw [hcells, splitOn_join (List.append_ne_nil_of_left_ne_nil (List.append_ne_nil_of_left_ne_nil
    (List.append_ne_nil_of_left_ne_nil (List.append_ne_nil_of_left_ne_nil (List.cons_ne_nil _ _) _) _) _) _)]
  · have e1 := hname "  Point sets: " sets
    have e2 := hname "  Point data: " (m.pointData.map (·.1))
    have e3 := hname "  Cell data: " (m.cellData.map (·.1))
    simp only [List.map_eq_nil_iff] at e2 e3
    rw [e1, e2, e3]
  · intro x hx
    simp only [List.mem_append] at hx
    rcases hx with (((hx | hx) | hx) | hx) | hx
    · simp only [List.mem_cons, List.not_mem_nil, or_false] at hx
      rcases hx with rfl | rfl
      · decide +kernel
      · exact happ (by decide +kernel) (hnat _)
    · split at hx
      · rw [List.mem_singleton] at hx
        subst hx
        decide +kernel
      · rcases List.mem_cons.1 hx with rfl | hx
        · decide +kernel
        · obtain ⟨c, hc, rfl⟩ := List.mem_map.1 hx
          exact happ (happ (happ (by decide +kernel) (ht c hc)) (by decide +kernel)) (hnat _)
    · exact hnl _ _ (by decide +kernel) hs x hx
    · refine hnl _ _ (by decide +kernel) ?_ x hx
      intro s hs
      obtain ⟨e, he, rfl⟩ := List.mem_map.1 hs
      exact hp e he
    · refine hnl _ _ (by decide +kernel) ?_ x hx
      intro s hs
      obtain ⟨e, he, rfl⟩ := List.mem_map.1 hs
      exact hc e he

example : meshText (⟨[⟨0, 0, 0⟩], [⟨.tetra, [[0, 0, 0, 0]]⟩], [], [("material".toList, [1])], []⟩ : Mesh.Mesh ℤ ℕ) [] =
    "<toughio mesh object>\n  Number of points: 1\n  Number of cells:\n    tetra: 1\n  Cell data: material".toList := by
  decide +kernel

/-! ## Initial conditions -/

/-- C79. The initial conditions of a mesh: each cell has its label, its row of initial
conditions, and the porosity and permeability modifiers at its place; the file is that of
C62. It is only written if it is asked for. -/
theorem C79_incon (n : ℕ) (len : Option ℤ) (labels : List Str) (cd : List (Str × Arr)) (m : ℕ) (rows : List (List Flt))
    (hl : labeler n len = .ok labels) (h : InconData n cd m rows) (hd : ∃ r ∈ rows, ∃ v ∈ r, v ≠ .fin true (10 ^ 9)) :
    ∃ cells, cells.map (·.label) = labels ∧ cells.map (·.values) = rows ∧
      (∀ (i : ℕ) c, cells[i]? = some c → PorosityAt cd i c.porosity ∧ ModifiersAt cd i c.userx) ∧
      meshInconFile true n len cd = (meshIncon cells).map some ∧ meshInconFile false n len cd = .ok none := by
  have hln : labels.length = n := labeler_length hl
  have hget : ∀ k a, (k, a) ∈ cd → dictGet cd k = .ok a := fun k a ha => Verif.Model.dictGet_mem h.names ha
  have hno : ∀ k, k ∉ cd.map (·.1) → dictGet cd k = .error .keyError := by
    intro k hk
    apply dictGet_absent
    rintro e he rfl
    exact hk (List.mem_map_of_mem he)
  have hcase : ∀ k, (∃ a, (k, a) ∈ cd) ∨ k ∉ cd.map (·.1) := by
    intro k
    by_cases hk : k ∈ cd.map (·.1)
    · obtain ⟨e, he, rfl⟩ := List.mem_map.1 hk
      exact .inl ⟨e.2, he⟩
    · exact .inr hk
  -- the porosities
  obtain ⟨phi, hphi, hphic, phis, hphis, hphl, hpha⟩ : ∃ phi, (dictGet cd "porosity".toList).toOption = phi ∧
      checkPorosity n phi = .ok () ∧ ∃ phis, porosityList labels.length phi = phis ∧ phis.length = n ∧
      ∀ (i : ℕ) x, phis[i]? = some x → PorosityAt cd i x := by
    rcases hcase "porosity".toList with ⟨a, ha⟩ | ha
    · obtain ⟨l, rfl, hll⟩ := h.porosity a ha
      refine ⟨some (.vec l), by rw [hget _ _ ha]; rfl, if_pos hll, _, rfl, by simpa [porosityList, modifierList] using hll, ?_⟩
      intro i x hx
      simp only [porosityList, modifierList, List.getElem?_map, Option.map_eq_some_iff] at hx
      obtain ⟨v, hv, rfl⟩ := hx
      exact .inl ⟨l, v, ha, hv, rfl⟩
    · refine ⟨none, by rw [hno _ ha]; rfl, rfl, _, rfl, by simpa [porosityList, modifierList] using hln, ?_⟩
      intro i x hx
      exact .inr ⟨ha, (List.mem_replicate.1 (List.mem_of_getElem? hx)).2⟩
  obtain ⟨perm, hperm, hpermc, perms, hperms, hpml, hpma⟩ : ∃ perm, (dictGet cd "permeability".toList).toOption = perm ∧
      checkPermeability n perm = .ok () ∧ ∃ perms, modifierList labels.length perm = perms ∧ perms.length = n ∧
      ∀ (i : ℕ) x, perms[i]? = some x → ModifiersAt cd i x := by
    rcases hcase "permeability".toList with ⟨a, ha⟩ | ha
    · rcases h.modifiers a ha with ⟨l, rfl, hll⟩ | ⟨r, rfl, hll⟩
      · refine ⟨some (.vec l), by rw [hget _ _ ha]; rfl, if_pos hll, _, rfl, by simpa [porosityList, modifierList] using hll, ?_⟩
        intro i x hx
        simp only [porosityList, modifierList, List.getElem?_map, Option.map_eq_some_iff] at hx
        obtain ⟨v, hv, rfl⟩ := hx
        exact .inl ⟨l, v, ha, hv, rfl⟩
      · refine ⟨some (.mat 3 r), by rw [hget _ _ ha]; rfl, if_pos ⟨rfl, hll⟩, _, rfl, by simpa [porosityList, modifierList] using hll, ?_⟩
        intro i x hx
        simp only [porosityList, modifierList, List.getElem?_map, Option.map_eq_some_iff] at hx
        obtain ⟨v, hv, rfl⟩ := hx
        exact .inr (.inl ⟨r, v, ha, hv, rfl⟩)
    · refine ⟨none, by rw [hno _ ha]; rfl, rfl, _, rfl, by simpa [porosityList, modifierList] using hln, ?_⟩
      intro i x hx
      exact .inr (.inr ⟨ha, (List.mem_replicate.1 (List.mem_of_getElem? hx)).2⟩)
  have hinit : initIncon n cd = (.mat m rows, phi, perm) := by
    unfold initIncon
    rw [hget _ _ h.given, hphi, hperm]
  have hcells : inconCells labels (.mat m rows) phi perm =
      (labels.zip (rows.zip (phis.zip perms))).map fun e => ⟨e.1, e.2.1, e.2.2.1, e.2.2.2⟩ := by
    unfold inconCells
    rw [← hphis, ← hperms]
    rfl
  have hwant : (rows.all fun r => r.all fun v => decide (v = .fin true (10 ^ 9))) = false := by
    obtain ⟨r, hr, v, hv, hne⟩ := hd
    rw [List.all_eq_false]
    refine ⟨r, hr, ?_⟩
    rw [Bool.not_eq_true, List.all_eq_false]
    exact ⟨v, hv, by simpa using hne⟩
  have hcheck : ∀ b, checkInconArrays b (.mat m rows) phi perm n = .ok b := by
    intro b
    have hrows : inconRows (.mat m rows) = .ok rows := if_neg h.columns
    unfold checkInconArrays
    rw [hrows, ok_bind]
    cases b
    · rfl
    · simp only [if_true]
      rw [hphic, ok_bind, hpermc, ok_bind, hwant]
      rfl
  refine ⟨inconCells labels (.mat m rows) phi perm, ?_, ?_, ?_, ?_, ?_⟩
  · rw [hcells, List.map_map]
    exact List.map_fst_zip (by simp [hln, h.all, hphl, hpml])
  · rw [hcells, List.map_map]
    have : (MeshIncon.values ∘ fun e : Str × List Flt × Option Flt × Option (List Flt) =>
        (⟨e.1, e.2.1, e.2.2.1, e.2.2.2⟩ : MeshIncon)) = Prod.fst ∘ Prod.snd := rfl
    rw [this, ← List.map_map, List.map_snd_zip (by simp [hln, h.all, hphl, hpml]),
      List.map_fst_zip (by simp [h.all, hphl, hpml])]
  · intro i c hc
    rw [hcells, List.getElem?_map, Option.map_eq_some_iff] at hc
    obtain ⟨e, he, rfl⟩ := hc
    rw [List.getElem?_zip_eq_some, List.getElem?_zip_eq_some, List.getElem?_zip_eq_some] at he
    exact ⟨hpha i _ he.2.2.1, hpma i _ he.2.2.2⟩
  · unfold meshInconFile
    rw [hinit]
    simp only
    rw [hcheck, ok_bind, if_pos rfl, hl, ok_bind]
    cases meshIncon (inconCells labels (.mat m rows) phi perm) <;> rfl
  · unfold meshInconFile
    rw [hinit]
    simp only
    rw [hcheck, ok_bind]
    rfl

/-- Cell data of two cells. -/
def twoCellData : List (Str × Arr) :=
  [("porosity".toList, .vec [.fin false (1 / 4), .fin false (1 / 8)]), ("initial_condition".toList,
    .mat 2 [[.fin false 100000, .fin false 20], [.fin true (10 ^ 9), .fin true (10 ^ 9)]])]

theorem twoCellData_ok : InconData 2 twoCellData 2
    [[.fin false 100000, .fin false 20], [.fin true (10 ^ 9), .fin true (10 ^ 9)]] := by
  refine ⟨by decide +kernel, by simp [twoCellData], by decide, rfl, ?_, ?_⟩
  · intro a ha
    have h : a = .vec [.fin false (1 / 4), .fin false (1 / 8)] := by
      simp only [twoCellData, List.mem_cons, List.not_mem_nil, or_false, Prod.mk.injEq] at ha
      rcases ha with ⟨-, rfl⟩ | ⟨h, -⟩
      · rfl
      · exact absurd h (by decide +kernel)
    exact ⟨_, h, rfl⟩
  · intro a ha
    exfalso
    simp only [twoCellData, List.mem_cons, List.not_mem_nil, or_false, Prod.mk.injEq] at ha
    rcases ha with ⟨h, -⟩ | ⟨h, -⟩ <;> exact absurd h (by decide +kernel)

example : labeler 2 none = .ok ["A1100".toList, "A1101".toList] ∧ ∃ m rows, InconData 2 twoCellData m rows ∧
    ∃ r ∈ rows, ∃ v ∈ r, v ≠ .fin true (10 ^ 9) :=
  ⟨by decide +kernel, 2, _, twoCellData_ok, _, List.mem_cons_self, _, List.mem_cons_self, by decide +kernel⟩

/-- C79, partial (missing: as in C62). The INCON file of a mesh of up to 31850000000 cells, if
its numbers fit, is read back as the initial conditions of its cells. -/
theorem C79_incon_read_partial (n : ℕ) (cd : List (Str × Arr)) (m : ℕ) (rows : List (List Flt)) (hn : 0 < n)
    (hc : n ≤ capacity 9) (h : InconData n cd m rows) (hm : ∀ r ∈ rows, r.length = m)
    (hd : ∃ r ∈ rows, ∃ v ∈ r, IsDefined v) (hneg : ∀ r ∈ rows, ∀ v ∈ r, NotNegative v) :
    ∃ labels cells, labeler n none = .ok labels ∧ cells.map (·.label) = labels ∧ cells.map (·.values) = rows ∧
      (∀ (i : ℕ) c, cells[i]? = some c → PorosityAt cd i c.porosity ∧ ModifiersAt cd i c.userx) ∧
      ((∀ c ∈ cells, MeshInconFits c) → ∃ lines, meshInconFile true n none cd = .ok (some lines) ∧
        readFile none lines = .ok { FileRead.empty with initialConditions := some (meshIncons cells) }) := by
  obtain ⟨L, labels, h1, h2, h3⟩ := C61_labels n hn hc
  have hundef : ¬ IsDefined (.fin true (10 ^ 9)) := by decide +kernel
  obtain ⟨cells, g1, g2, g3, g4, -⟩ := C79_incon n none labels cd m rows h1 h (by
    obtain ⟨r, hr, v, hv, hx⟩ := hd
    refine ⟨r, hr, v, hv, ?_⟩
    rintro rfl
    exact hundef hx)
  refine ⟨labels, cells, h1, g1, g2, g3, ?_⟩
  intro hf
  have hval : ∀ c ∈ cells, c.values ∈ rows := fun c hc => g2 ▸ List.mem_map_of_mem hc
  obtain ⟨lines, e1, e2⟩ := C62_file_partial none L (.inl rfl) cells m (g1 ▸ h3) (fun c hc => hm _ (hval c hc)) hf
    (fun c hc v hv => hneg _ (hval c hc) v hv) (by
      obtain ⟨r, hr, v, hv, hx⟩ := hd
      rw [← g2] at hr
      obtain ⟨c, hc, rfl⟩ := List.mem_map.1 hr
      exact ⟨c, hc, .inl ⟨v, hv, hx⟩⟩)
  refine ⟨lines, ?_, e2⟩
  rw [g4, e1]
  rfl

example : (0 : ℕ) < 2 ∧ 2 ≤ capacity 9 ∧ IsDefined (.fin false 100000) ∧ NotNegative (.fin false 20) ∧
    NotNegative (.fin true (10 ^ 9)) := by decide +kernel

/-- C79. Without initial conditions no file is written. -/
theorem C79_incon_none (n : ℕ) (len : Option ℤ) (cd : List (Str × Arr)) (b : Bool)
    (h : "initial_condition".toList ∉ cd.map (·.1)) (hn : (cd.map (·.1)).Nodup)
    (h1 : ∀ a, ("porosity".toList, a) ∈ cd → PorosityShape n a)
    (h2 : ∀ a, ("permeability".toList, a) ∈ cd → ModifiersShape n a) : meshInconFile b n len cd = .ok none := by
  have hp : dictGet cd "initial_condition".toList = .error .keyError := by
    apply dictGet_absent
    intro e he hk
    exact h (List.mem_map.2 ⟨e, he, hk⟩)
  have hphi : checkPorosity n (dictGet cd "porosity".toList).toOption = .ok () := by
    cases hg : dictGet cd "porosity".toList with
    | error e => rfl
    | ok a =>
      obtain ⟨l, rfl, hl⟩ := h1 a ((dictGet_eq_ok hn).1 hg)
      exact if_pos hl
  have hperm : checkPermeability n (dictGet cd "permeability".toList).toOption = .ok () := by
    cases hg : dictGet cd "permeability".toList with
    | error e => rfl
    | ok a =>
      rcases h2 a ((dictGet_eq_ok hn).1 hg) with ⟨l, rfl, hl⟩ | ⟨r, rfl, hl⟩
      · exact if_pos hl
      · exact if_pos ⟨rfl, hl⟩
  have hall : ((List.replicate n (List.replicate 4 (Flt.fin true (10 ^ 9)))).all fun r =>
      r.all fun v => decide (v = .fin true (10 ^ 9))) = true := by
    rw [List.all_eq_true]
    intro r hr
    rw [(List.mem_replicate.1 hr).2, List.all_eq_true]
    intro v hv
    rw [(List.mem_replicate.1 hv).2]
    simp
  have hc : checkInconArrays b (undefinedRows n) (dictGet cd "porosity".toList).toOption
      (dictGet cd "permeability".toList).toOption n = .ok false := by
    have hrows : inconRows (undefinedRows n) = .ok (List.replicate n (List.replicate 4 (.fin true (10 ^ 9)))) := rfl
    unfold checkInconArrays
    rw [hrows, ok_bind, hall]
    cases b
    · rfl
    · simp only [if_true]
      rw [hphi, ok_bind, hperm, ok_bind]
      rfl
  unfold meshInconFile initIncon
  rw [hp]
  simp only
  rw [hc, ok_bind]
  rfl

example : "initial_condition".toList ∉ ([("porosity".toList, .vec [.fin false (1 / 4)])] : List (Str × Arr)).map (·.1) := by
  decide +kernel

/-- C79. Initial conditions without columns, and, if the file is asked for, porosities and
permeability modifiers of a wrong shape are refused. -/
theorem C79_incon_refused (n : ℕ) (len : Option ℤ) (cd : List (Str × Arr)) (hn : (cd.map (·.1)).Nodup) (b : Bool)
    (h : (∃ l, ("initial_condition".toList, Arr.vec l) ∈ cd) ∨ (∃ r, ("initial_condition".toList, Arr.mat 0 r) ∈ cd) ∨
      (b = true ∧ ∃ a, ("porosity".toList, a) ∈ cd ∧ ¬ PorosityShape n a) ∨
      (b = true ∧ ∃ a, ("permeability".toList, a) ∈ cd ∧ ¬ ModifiersShape n a)) :
    ∃ e, meshInconFile b n len cd = .error e := by
  have hget : ∀ k a, (k, a) ∈ cd → dictGet cd k = .ok a := fun k a ha => Verif.Model.dictGet_mem hn ha
  suffices hc : ∀ p phi perm, initIncon n cd = (p, phi, perm) → ∃ e, checkInconArrays b p phi perm n = .error e by
    rcases hi : initIncon n cd with ⟨p, phi, perm⟩
    obtain ⟨e, he⟩ := hc p phi perm hi
    refine ⟨e, ?_⟩
    unfold meshInconFile
    rw [hi]
    simp only
    rw [he]
    rfl
  intro p phi perm hi
  unfold initIncon at hi
  obtain ⟨hp, hphi, hperm⟩ : _ ∧ _ ∧ _ := by simpa only [Prod.mk.injEq] using hi
  cases hr : checkInconArrays b p phi perm n with
  | error e => exact ⟨e, rfl⟩
  | ok r =>
    exfalso
    rcases h with ⟨l, hl⟩ | ⟨l, hl⟩ | ⟨rfl, a, ha, hs⟩ | ⟨rfl, a, ha, hs⟩
    · rw [hget _ _ hl] at hp
      subst hp
      cases hr
    · rw [hget _ _ hl] at hp
      subst hp
      cases hr
    · rw [hget _ _ ha] at hphi
      subst hphi
      have hbad : checkPorosity n (Except.ok (ε := PyErr) a).toOption = .error .valueError := by
        cases a with
        | vec l => exact if_neg fun hl => hs ⟨l, rfl, hl⟩
        | mat m r => rfl
        | deep k => rfl
      unfold checkInconArrays at hr
      obtain ⟨rows, -, hr⟩ := bind_eq_ok.1 hr
      simp only [if_true] at hr
      rw [hbad] at hr
      cases hr
    · rw [hget _ _ ha] at hperm
      subst hperm
      have hbad : checkPermeability n (Except.ok (ε := PyErr) a).toOption = .error .valueError := by
        cases a with
        | vec l => exact if_neg fun hl => hs (.inl ⟨l, rfl, hl⟩)
        | mat m r => exact if_neg fun hl => hs (.inr ⟨r, by rw [hl.1], hl.2⟩)
        | deep k => rfl
      unfold checkInconArrays at hr
      obtain ⟨rows, -, hr⟩ := bind_eq_ok.1 hr
      simp only [if_true] at hr
      obtain ⟨u, -, hr⟩ := bind_eq_ok.1 hr
      rw [hbad] at hr
      cases hr

example : ¬ PorosityShape 2 (.vec [.fin false (1 / 4)]) := by
  rintro ⟨l, h, hl⟩
  cases h
  simp at hl

/-- C79 is violated for initial conditions with fewer rows than cells: they are not refused,
and the other cells are left out although they have a porosity. -/
theorem C79_rows_violated : ∃ (cd : List (Str × Arr)),
    ("porosity".toList, .vec [.fin false (1 / 4), .fin false (1 / 8)]) ∈ cd ∧
    ("initial_condition".toList, .mat 1 [[.fin false 100000]]) ∈ cd ∧
    meshInconFile true 2 none cd =
      (meshIncon [⟨"A1100".toList, [.fin false 100000], some (.fin false (1 / 4)), none⟩]).map some := by
  refine ⟨[("porosity".toList, .vec [.fin false (1 / 4), .fin false (1 / 8)]),
    ("initial_condition".toList, .mat 1 [[.fin false 100000]])], by simp, by simp, ?_⟩
  have hl : labeler 2 none = .ok ["A1100".toList, "A1101".toList] := by decide +kernel
  have hc : checkInconArrays true (.mat 1 [[.fin false 100000]]) (some (.vec [.fin false (1 / 4), .fin false (1 / 8)]))
      none 2 = .ok true := by decide +kernel
  have hi : initIncon 2 [("porosity".toList, .vec [.fin false (1 / 4), .fin false (1 / 8)]),
      ("initial_condition".toList, .mat 1 [[.fin false 100000]])] =
      (.mat 1 [[.fin false 100000]], some (.vec [.fin false (1 / 4), .fin false (1 / 8)]), none) := by decide +kernel
  unfold meshInconFile
  rw [hi]
  simp only
  rw [hc, ok_bind, if_pos rfl, hl, ok_bind]
  have : inconCells ["A1100".toList, "A1101".toList] (.mat 1 [[.fin false 100000]])
      (some (.vec [.fin false (1 / 4), .fin false (1 / 8)])) none =
      [⟨"A1100".toList, [.fin false 100000], some (.fin false (1 / 4)), none⟩] := rfl
  rw [this]
  cases meshIncon [⟨"A1100".toList, [.fin false 100000], some (.fin false (1 / 4)), none⟩] <;> rfl

/-! ## Files -/

/-- C79. The INCON file is in the directory of the MESH file. -/
theorem C79_path (dir base : Str) (hb : '/' ∉ base) :
    inconPath base = "INCON".toList ∧ inconPath ('/' :: base) = "/INCON".toList ∧
    (dir ≠ [] → dir.getLast? ≠ some '/' → inconPath (dir ++ '/' :: base) = dir ++ "/INCON".toList) := by
  have hr : ∀ s : Str, '/' ∉ s → rfind '/' s = -1 := by
    intro s hs
    induction s with
    | nil => rfl
    | cons c s ih =>
      have h1 := ih fun h => hs (List.mem_cons_of_mem _ h)
      have h2 : c ≠ '/' := fun h => hs (by simp [h])
      simp [rfind, h1, h2]
  have hr2 : ∀ d s : Str, '/' ∉ s → rfind '/' (d ++ '/' :: s) = d.length := by
    intro d s hs
    induction d with
    | nil => simp [rfind, hr s hs]
    | cons c d ih =>
      rw [List.cons_append, rfind, ih]
      simp
  refine ⟨?_, ?_, ?_⟩
  · unfold inconPath pathHead
    rw [hr base hb]
    rfl
  · unfold inconPath pathHead
    have := hr2 [] base hb
    rw [List.nil_append] at this
    rw [this]
    rfl
  · intro h0 hl
    have htake : (dir ++ '/' :: base).take (rfind '/' (dir ++ '/' :: base) + 1).toNat = dir ++ ['/'] := by
      rw [hr2 dir base hb]
      have : ((dir.length : ℤ) + 1).toNat = dir.length + 1 := by omega
      rw [this, List.take_append]
      simp
    obtain ⟨d, c, rfl⟩ : ∃ d c, dir = d ++ [c] := ⟨dir.dropLast, dir.getLast h0, (List.dropLast_append_getLast h0).symm⟩
    have hc : c ≠ '/' := by
      rintro rfl
      exact hl (by simp)
    have hhead : pathHead (d ++ [c] ++ '/' :: base) = d ++ [c] := by
      unfold pathHead
      rw [htake]
      simp [hc]
    unfold inconPath
    rw [hhead]
    simp only
    rw [if_pos (by simp)]
    unfold pathJoin
    rw [if_neg (by simp), if_neg (by simpa using hc)]
    rfl

example : inconPath "a/b/MESH".toList = "a/b/INCON".toList := (C79_path "a/b".toList "MESH".toList (by decide)).2.2 (by decide) (by decide)

/-- C79. The MESH file has the name given, the INCON file its own; other files stay as they
are. -/
theorem C79_files (files : List (Str × List Str)) (filename : Str) (mesh : List Str) (incon : Option (List Str))
    (h : incon ≠ none → inconPath filename ≠ filename) :
    dictGet (writeFiles files filename mesh incon) filename = .ok mesh ∧
    (∀ i, incon = some i → dictGet (writeFiles files filename mesh incon) (inconPath filename) = .ok i) ∧
    ∀ f, f ≠ filename → (incon ≠ none → f ≠ inconPath filename) →
      dictGet (writeFiles files filename mesh incon) f = dictGet files f := by
  cases incon with
  | none =>
    refine ⟨?_, (fun i hi => nomatch hi), ?_⟩
    · exact (dictGet_dictSet _ _ _ _).trans (if_pos rfl)
    · intro f hf _
      exact (dictGet_dictSet _ _ _ _).trans (if_neg hf)
  | some i =>
    have h := h (by simp)
    refine ⟨?_, ?_, ?_⟩
    · exact (dictGet_dictSet _ _ _ _).trans ((if_neg (Ne.symm h)).trans ((dictGet_dictSet _ _ _ _).trans (if_pos rfl)))
    · rintro i' hi
      cases hi
      exact (dictGet_dictSet _ _ _ _).trans (if_pos rfl)
    · intro f hf hg
      exact (dictGet_dictSet _ _ _ _).trans ((if_neg (hg (by simp))).trans ((dictGet_dictSet _ _ _ _).trans (if_neg hf)))

example : inconPath "run/MESH".toList ≠ "run/MESH".toList := by decide

/-- C79 is violated for a MESH file with the name INCON: it is overwritten. -/
theorem C79_files_violated (files : List (Str × List Str)) (mesh incon : List Str) :
    dictGet (writeFiles files "INCON".toList mesh (some incon)) "INCON".toList = .ok incon := by
  have h : inconPath "INCON".toList = "INCON".toList := by decide
  show dictGet (dictSet _ (inconPath "INCON".toList) incon) _ = _
  rw [h]
  exact (dictGet_dictSet _ _ _ _).trans (if_pos rfl)

end Verif.Props
