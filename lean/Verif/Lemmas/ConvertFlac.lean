import Verif.Model.ConvertFlac
import Verif.Spec.ConvertFlac
import Verif.Lemmas.Convert
import Verif.Lemmas.ResaveFlac

/-!
# Lemmas: mesh files of FLAC3D that are converted
-/

namespace Verif.Mesh
open Verif.Py Verif.Model Verif.Spec

/-! ### from FLAC3D -/

theorem oriented_self {α : Type} {pos : α → α → α → α → Bool} {points : List α} {l zones : List (CellType × List ℕ)}
    (hr : ∀ e ∈ l, RightHanded pos points e) (h : List.Forall₂ (Oriented pos points) l zones) : zones = l := by
  induction h with
  | nil => rfl
  | cons ho _ ih =>
    obtain ⟨h1, h2, -⟩ := ho
    rw [ih fun e he => hr e (List.mem_cons_of_mem _ he), Prod.ext h1 (h2 (hr _ List.mem_cons_self))]

/-- The groups have the numbers of the materials. -/
theorem groups_kept {m : FlacMesh} {mat : List ℤ} {gs : List ℕ} {fields : List (Str × ℕ × ℕ)}
    (h : Describes m mat gs fields) (hg : GroupsOk m mat) (hl : mat.length = (typedCells m.cells).length) {n : ℕ}
    (hn : materialsOfDim m mat 3 ++ materialsOfDim m mat 2 = (List.range n).map fun i : ℕ => (i : ℤ) + 1) :
    gs.map (fun g : ℕ => (g : ℤ)) = mat := by
  have hk : (allKinds m mat).map (·.2) = (List.range n).map fun i : ℕ => (i : ℤ) + 1 := by
    rw [← hn, allKinds, List.map_append, List.map_map, List.map_map]
    exact congrArg₂ _ (List.map_id _) (List.map_id _)
  have h1 := congrArg (List.map (·.2)) (keys_read (m' := m) h hg rfl)
  have hlen : gs.length = mat.length := by
    rw [← h.cells.length_eq, groupKeys, List.length_zip, List.length_map, hl, Nat.min_self]
  rw [groupKeys, List.map_snd_zip (by rw [List.length_map, List.length_map, hlen, hl]), List.map_map] at h1
  rw [h1]
  have h2 : (groupKeys m.cells mat).map (·.2) = mat := by
    rw [groupKeys, List.map_snd_zip (by rw [List.length_map, hl])]
  conv_rhs => rw [← h2]
  refine List.map_congr_left fun key hkey => ?_
  have hmem := key_mem_allKinds hg.known hkey
  have hlt := List.idxOf_lt_length_of_mem hmem
  have hget : ((allKinds m mat).map (·.2))[(allKinds m mat).idxOf key]? = some key.2 := by
    rw [List.getElem?_map, List.getElem?_eq_getElem hlt, List.getElem_idxOf]
    rfl
  have hlt' : (allKinds m mat).idxOf key < n := by
    have := congrArg List.length hk
    rw [List.length_map, List.length_map, List.length_range] at this
    omega
  rw [hk, List.getElem?_map, List.getElem?_range hlt'] at hget
  have := Option.some.inj hget
  show (((allKinds m mat).idxOf key + 1 : ℕ) : ℤ) = key.2
  rw [← this]
  push_cast
  rfl

/-- What was loaded is the mesh, but for the blocks of cells. -/
theorem flac_kept {num : Flt → Flt} {pos : P3 Flt → P3 Flt → P3 Flt → P3 Flt → Bool} {m : FlacMesh} {r : FlacRead}
    (h : FlacOk m) (hk : FlacKept num pos m) (hg : ∀ mat, materialOfCells m = some mat → GroupsOk m mat)
    (hm : SameMesh num pos m r) (hsg : SameGroups m r) :
    ∃ m', r.mesh = .ok m' ∧ m'.points = m.points ∧ typedCells m'.cells = typedCells m.cells ∧
      (∀ b ∈ m'.cells, b.data ≠ []) ∧ m'.arrays = (plainMesh m).cellData := by
  obtain ⟨zones, hc, hz⟩ := hm.cells
  obtain rfl := oriented_self hk.right hz
  have hpts : m.points.map (pointMap num) = m.points := by
    conv_rhs => rw [← List.map_id m.points]
    refine List.map_congr_left fun q hq => ?_
    obtain ⟨h1, h2, h3⟩ := hk.digits q hq
    rw [pointMap, h1, h2, h3]
    rfl
  refine ⟨⟨m.points.map (pointMap num), r.cells, match r.group with
      | none => []
      | some gs => [("material".toList, gs.map fun g : ℕ => (g : ℤ))],
    r.fieldData.map fun e => (e.1, (e.2.1 : ℤ), (e.2.2 : ℤ))⟩, ?_, hpts, hc.trans hk.corners.symm, hm.full, ?_⟩
  · unfold FlacRead.mesh
    rw [hm.points, List.mapM_map]
    refine (congrArg (fun x : Except PyErr (List (P3 Flt)) => x >>= fun ps => Except.ok (FlacMesh.mk ps r.cells _ _))
      (mapM_ok (g := pointMap num) ?_)).trans rfl
    exact fun q _ => rfl
  · rw [SameGroups] at hsg
    unfold FlacMesh.arrays plainMesh
    cases hmat : materialOfCells m with
    | none =>
      rw [hmat] at hsg
      simp only
      rw [hsg.1]
      rfl
    | some mat =>
      rw [hmat] at hsg
      have hlen := materialOfCells_length h hmat
      have hne : mat ≠ [] := by
        intro h0
        have : (cornersOf 3 m.cells).length = 0 := by
          have h1 := congrArg List.length hk.corners
          rw [← hlen, h0, List.length_append] at h1
          simp only [List.length_nil] at h1
          omega
        exact hk.zones (List.length_eq_zero_iff.1 this)
      simp only [if_neg hne] at hsg
      obtain ⟨gs, hgs, hd⟩ := hsg
      obtain ⟨n, hn⟩ := hk.numbers mat hmat
      simp only
      rw [hgs]
      simp only
      rw [groups_kept hd (hg mat hmat) hlen hn]
      rfl

theorem kept_to_avs {r : FlacRead} {m m' : FlacMesh} (version : Str) (ha : AvsPlain (plainMesh m)) (h1 : r.mesh = .ok m')
    (h2 : m'.points = m.points) (h3 : typedCells m'.cells = typedCells m.cells) (h4 : ∀ b ∈ m'.cells, b.data ≠ [])
    (h5 : m'.arrays = (plainMesh m).cellData) : saveFlacAsAvs version r = writeAvs version (plainMesh m) := by
  rw [saveFlacAsAvs, h1, ok_bind, h2, h5]
  exact writeAvs_cells version ha h3 h4

theorem kept_to_tec {r : FlacRead} {m m' : FlacMesh} (version : Str) (ht : TecMeshOk (plainMesh m))
    (hb : ∀ b ∈ m.cells, b.data ≠ []) (h1 : r.mesh = .ok m')
    (h2 : m'.points = m.points) (h3 : typedCells m'.cells = typedCells m.cells) (h4 : ∀ b ∈ m'.cells, b.data ≠ [])
    (h5 : m'.arrays = (plainMesh m).cellData) : saveFlacAsTec version r = writeTecMesh false version (plainMesh m) := by
  rw [saveFlacAsTec, h1, ok_bind, h2, h5]
  exact writeTecMesh_cells (m := plainMesh m) false version ht hb h4 h3

theorem flac_text_kept (p : ℕ) (pos : P3 Flt → P3 Flt → P3 Flt → P3 Flt → Bool) (version date : Str) {m : FlacMesh}
    (h : FlacOk m) (hg : ∀ mat, materialOfCells m = some mat → TextGroupsOk m mat) (hk : FlacKept (quant p) pos m) :
    ∃ lines r m', writeFlac p pos version date m = .ok lines ∧ readFlac lines = .ok r ∧
      r.mesh = .ok m' ∧ m'.points = m.points ∧ typedCells m'.cells = typedCells m.cells ∧
      (∀ b ∈ m'.cells, b.data ≠ []) ∧ m'.arrays = (plainMesh m).cellData := by
  obtain ⟨r, h1, h2, h3⟩ := C66_round_trip_partial p pos version date h hg
  obtain ⟨zones, -, hw⟩ := C66_file p pos version date h fun hn => by
    cases hmat : materialOfCells m with
    | none => exact absurd hmat hn
    | some mat => exact (hg mat hmat).known
  obtain ⟨m', hm'⟩ := flac_kept h hk (fun mat hm => (hg mat hm).toGroupsOk) h2 h3
  rw [hw, ok_bind] at h1
  exact ⟨_, r, m', hw, h1, hm'⟩

theorem flac_bin_kept (pos : P3 Flt → P3 Flt → P3 Flt → P3 Flt → Bool) {m : FlacMesh} (h : FlacOk m) (hb : BinOk m)
    (hg : ∀ mat, materialOfCells m = some mat → BinGroupsOk m mat) (hk : FlacKept id pos m) :
    ∃ bytes r m', writeFlacBin pos m = .ok bytes ∧ readFlacBin bytes = .ok r ∧
      r.mesh = .ok m' ∧ m'.points = m.points ∧ typedCells m'.cells = typedCells m.cells ∧
      (∀ b ∈ m'.cells, b.data ≠ []) ∧ m'.arrays = (plainMesh m).cellData := by
  obtain ⟨r, h1, h2, h3⟩ := C67_round_trip_partial pos h hb hg
  obtain ⟨zones, -, hw⟩ := C67_file pos h hb fun mat hm => ⟨(hg mat hm).known, (hg mat hm).ascii, (hg mat hm).short⟩
  obtain ⟨m', hm'⟩ := flac_kept h hk (fun mat hm => (hg mat hm).toGroupsOk) h2 h3
  rw [hw, ok_bind] at h1
  exact ⟨_, r, m', hw, h1, hm'⟩

/-! ### to FLAC3D -/

section
variable {m : FlacMesh} {cells : List CellBlock}

theorem cornersOf_congr (hc : typedCells cells = typedCells m.cells) (d : ℕ) : cornersOf d cells = cornersOf d m.cells := by
  unfold cornersOf
  rw [hc]

theorem groupKeys_congr (hc : typedCells cells = typedCells m.cells) (mat : List ℤ) :
    groupKeys cells mat = groupKeys m.cells mat := by
  unfold groupKeys
  rw [hc]

theorem known_congr (hne : ∀ b ∈ cells, b.data ≠ []) (hc : typedCells cells = typedCells m.cells)
    (hk : ∀ b ∈ m.cells, dimOf b.type ≠ 0) : ∀ b ∈ cells, dimOf b.type ≠ 0 := by
  intro b hb
  obtain ⟨c, hcb⟩ := List.exists_mem_of_ne_nil _ (hne b hb)
  have hmem : (b.type, c) ∈ typedCells m.cells := by
    rw [← hc]
    exact List.mem_flatMap.2 ⟨b, hb, List.mem_map_of_mem hcb⟩
  obtain ⟨b', hb', ht, -⟩ := mem_typedCells hmem
  rw [show b.type = b'.type from ht]
  exact hk b' hb'

theorem flacOk_congr (h : FlacOk m) (hz : cornersOf 3 m.cells ≠ []) (hne : ∀ b ∈ cells, b.data ≠ [])
    (hc : typedCells cells = typedCells m.cells) : FlacOk ⟨m.points, cells, m.cellData, m.fieldData⟩ where
  cells := by
    obtain ⟨z, hz⟩ := List.exists_mem_of_ne_nil _ hz
    rw [← cornersOf_congr hc, cornersOf, List.mem_filterMap] at hz
    obtain ⟨e, he, hs⟩ := hz
    obtain ⟨b, hb, ht, -⟩ := mem_typedCells he
    refine ⟨b, hb, ?_⟩
    rw [← ht, dimOf]
    split at hs
    · rename_i d' t n hsol
      rw [hsol]
      by_cases hd : d' = 3
      · exact hd
      · rw [if_neg hd] at hs
        cases hs
    · cases hs
  vertices := by
    intro b hb d t n hs c hcb
    have hmem : (b.type, c) ∈ typedCells m.cells := by
      rw [← hc]
      exact List.mem_flatMap.2 ⟨b, hb, List.mem_map_of_mem hcb⟩
    obtain ⟨b', hb', ht, hcb'⟩ := mem_typedCells hmem
    have ht : b.type = b'.type := ht
    rw [ht] at hs
    exact h.vertices b' hb' d t n hs c hcb'
  lengths := by
    intro e he
    show e.2.length = (typedCells cells).length
    rw [hc]
    exact h.lengths e he

/-- A file for FLAC3D does not depend on how cells are put into blocks. -/
theorem writeFlac_cells (p : ℕ) (pos : P3 Flt → P3 Flt → P3 Flt → P3 Flt → Bool) (version date : Str) (h : FlacOk m)
    (hz : cornersOf 3 m.cells ≠ []) (hk : ∀ b ∈ m.cells, dimOf b.type ≠ 0) (hne : ∀ b ∈ cells, b.data ≠ [])
    (hc : typedCells cells = typedCells m.cells) :
    writeFlac p pos version date ⟨m.points, cells, m.cellData, m.fieldData⟩ = writeFlac p pos version date m := by
  obtain ⟨zones, h1, h2⟩ := C66_file p pos version date h fun _ => hk
  obtain ⟨zones', h3, h4⟩ := C66_file p pos version date (flacOk_congr h hz hne hc) fun _ => known_congr hne hc hk
  have h3 : List.Forall₂ (Oriented pos m.points) (cornersOf 3 cells) zones' := h3
  rw [cornersOf_congr hc] at h3
  rw [h4, h2, oriented_all_unique h3 h1]
  have hmat : materialOfCells ⟨m.points, cells, m.cellData, m.fieldData⟩ = materialOfCells m := rfl
  have hgm : ∀ mat d, groupMembers ⟨m.points, cells, m.cellData, m.fieldData⟩ mat d = groupMembers m mat d := by
    intro mat d
    unfold groupMembers
    simp only [groupKeys_congr hc]
  unfold flacFile flacGroupText
  rw [hmat]
  simp only [hgm, cornersOf_congr hc]

theorem writeFlacBin_cells (pos : P3 Flt → P3 Flt → P3 Flt → P3 Flt → Bool) (h : FlacOk m) (hb : BinOk m)
    (hn : ∀ mat, materialOfCells m = some mat → BinNames m mat)
    (hz : cornersOf 3 m.cells ≠ []) (hne : ∀ b ∈ cells, b.data ≠ [])
    (hc : typedCells cells = typedCells m.cells) :
    writeFlacBin pos ⟨m.points, cells, m.cellData, m.fieldData⟩ = writeFlacBin pos m := by
  have hb' : BinOk ⟨m.points, cells, m.cellData, m.fieldData⟩ :=
    ⟨hb.doubles, hb.points, by show (typedCells cells).length < _; rw [hc]; exact hb.cells⟩
  obtain ⟨zones, h1, h2⟩ := C67_file pos h hb hn
  obtain ⟨zones', h3, h4⟩ := C67_file pos (flacOk_congr h hz hne hc) hb' fun mat hmat => by
    have := hn mat hmat
    refine ⟨known_congr hne hc this.known, ?_, ?_⟩
    · show ∀ e ∈ groupKeys cells mat, _
      rw [groupKeys_congr hc]
      exact this.ascii
    · show ∀ e ∈ groupKeys cells mat, _
      rw [groupKeys_congr hc]
      exact this.short
  have h3 : List.Forall₂ (Oriented pos m.points) (cornersOf 3 cells) zones' := h3
  rw [cornersOf_congr hc] at h3
  rw [h4, h2, oriented_all_unique h3 h1]
  have hmat : materialOfCells ⟨m.points, cells, m.cellData, m.fieldData⟩ = materialOfCells m := rfl
  have hgm : ∀ mat d, groupMembers ⟨m.points, cells, m.cellData, m.fieldData⟩ mat d = groupMembers m mat d := by
    intro mat d
    unfold groupMembers
    simp only [groupKeys_congr hc]
  unfold flacBinFile flacGroupBytes
  rw [hmat]
  simp only [hgm, cornersOf_congr hc]

end

/-- What was loaded from an AVS-UCD file, as a mesh for FLAC3D. -/
theorem avs_flacMesh (version : Str) {m : AvsMesh} (h : AvsOk m)
    (hn : ∀ e ∈ otherData m, ¬ IsMaterialName (underscored e.1)) {mats : List ℤ} (hm : MaterialsOf m mats) :
    ∃ lines r cells, writeAvs version m = .ok lines ∧ (∀ junk, readAvs junk lines = .ok r) ∧
      r.flacMesh = .ok ⟨m.points, cells, [("material".toList, mats)], []⟩ ∧
      typedCells cells = typedCells m.cells ∧ ∀ b ∈ cells, b.data ≠ [] := by
  obtain ⟨r, mats', h1, h2, h3, h4, -, -, h6, h7, h8⟩ := C64_round_trip_partial version h
  obtain ⟨mats'', hm'', hw⟩ := C64_file version h.toAvsPlain
  obtain rfl := materialsOf_unique h8 hm
  refine ⟨_, r, r.cells, hw, fun junk => ?_, ?_, h3, h4⟩
  · have := h1 junk
    rwa [hw, ok_bind] at this
  · have hany : r.cellData.any (fun e => decide (e.1 ∈ materialKeys)) = false := by
      rw [h6, List.any_eq_false]
      intro e he
      obtain ⟨e0, he0, rfl⟩ := List.mem_map.1 he
      simp only [decide_eq_true_eq, mem_materialKeys, dataRead_name]
      exact hn e0 he0
    unfold AvsRead.flacMesh
    rw [h2, List.mapM_map]
    refine (congrArg (fun x : Except PyErr (List (P3 Flt)) => x >>= _) (mapM_ok (g := id) ?_)).trans ?_
    · exact fun q _ => rfl
    · rw [ok_bind, List.map_id, hany, h7]
      rfl

end Verif.Mesh
