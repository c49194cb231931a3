import Verif.Model.FlacTough
import Verif.Spec.FlacTough
import Verif.Lemmas.ConvertFlac
import Verif.Props.Mesh
import Verif.Props.Reblock

/-!
# Lemmas: meshes that are saved for TOUGH by way of other formats (C103)
-/

namespace Verif.Mesh
open Verif.Py Verif.Model Verif.Spec Verif.Props

/-- The files depend on the points, the cells and the materials only. -/
theorem writeTough_congr {D D' : Type} (fl : ℝ → Flt) (a : ToughArgs) (m : Mesh ℝ D) (m' : Mesh ℝ D') (labelLength : Option ℤ)
    {mats mats' : Option (List ℤ)} (boundary : Option (List Bool)) (inconData : List (Str × Arr))
    (hp : m.points = m'.points) (hc : typedCells m.cells = typedCells m'.cells)
    (hm : ∀ n, materials n mats m.fieldData = materials n mats' m'.fieldData)
    (hf : FullBlocks m.cells) (hf' : FullBlocks m'.cells) :
    writeTough fl a m labelLength mats boundary inconData = writeTough fl a m' labelLength mats' boundary inconData := by
  have e1 : nCells m.cells = nCells m'.cells := by rw [← typedCells_length, ← typedCells_length, hc]
  have e2 : centers m = centers m' := by rw [centers_typed hf, centers_typed hf', hc, hp]
  have e3 : volumes m = volumes m' := by rw [volumes_typed hf, volumes_typed hf', hc, hp]
  have e4 : faces m.cells = faces m'.cells := by rw [faces_typed, faces_typed, hc]
  unfold writeTough writeToughOf
  simp only [e1, e2, e3, e4, hp, hm]

theorem mapM_related {α β γ : Type} {R : α → β → Prop} {f : β → Except PyErr γ} {g : α → γ} {l : List α} {l' : List β}
    (h : List.Forall₂ R l l') (hf : ∀ a b, a ∈ l → R a b → f b = .ok (g a)) : l'.mapM f = .ok (l.map g) := by
  induction h with
  | nil => rfl
  | cons hr _ ih =>
    rw [List.mapM_cons, hf _ _ List.mem_cons_self hr, ok_bind, ih fun a b ha => hf a b (List.mem_cons_of_mem _ ha)]
    rfl

theorem material_lookup_of {m : FlacMesh} {name : Str} (hmat : IsMaterialName name) (h : ∀ e ∈ m.cellData, e.1 = name) :
    m.cellData.lookup name = materialOfCells m := by
  unfold materialOfCells
  cases hl : m.cellData with
  | nil => rfl
  | cons e l =>
    rw [hl] at h
    obtain ⟨k, v⟩ := e
    have hk : k = name := h _ List.mem_cons_self
    subst hk
    rw [List.lookup_cons_self, List.filter_cons_of_pos
      (p := fun e : Str × List ℤ => decide (IsMaterialName e.1)) (decide_eq_true (p := IsMaterialName (k, v).1) hmat)]

/-- The cell data `material` are the material. -/
theorem material_lookup {m : FlacMesh} (h : ∀ e ∈ m.cellData, e.1 = "material".toList) :
    m.cellData.lookup "material".toList = materialOfCells m :=
  material_lookup_of (by decide +kernel) h

theorem groupName_named {field : List (Str × ℤ × ℤ)} (hd : (field.map (·.2.1)).Nodup) {k : ℤ}
    (hk : ∃ name, (name, k, 3) ∈ field) : dictGet (fieldDict field) k = .ok (groupName field 3 k) := by
  obtain ⟨name, hname⟩ := hk
  have hmem : (name, k, (3 : ℤ)) ∈ field.filter fun e => decide (e.2 = (k, ((3 : ℕ) : ℤ))) :=
    List.mem_filter.2 ⟨hname, by simp⟩
  unfold groupName
  cases hl : (field.filter fun e => decide (e.2 = (k, ((3 : ℕ) : ℤ)))).getLast? with
  | none =>
    rw [List.getLast?_eq_none_iff] at hl
    rw [hl] at hmem
    cases hmem
  | some e =>
    have he := List.mem_of_getLast? hl
    rw [List.mem_filter, decide_eq_true_eq] at he
    obtain ⟨s, p⟩ := e
    obtain ⟨h1, h2⟩ := he
    have h2 : p = (k, ((3 : ℕ) : ℤ)) := h2
    subst h2
    exact fieldDict_get hd h1

theorem groupKeys_solid {m : FlacMesh} {mat : List ℤ} (hs : ∀ e ∈ typedCells m.cells, dimOf e.1 = 3)
    (hl : mat.length = (typedCells m.cells).length) {g : ℕ → ℤ → Str} :
    (groupKeys m.cells mat).map (fun e => g e.1 e.2) = mat.map (g 3) := by
  have h1 : ∀ e ∈ groupKeys m.cells mat, e.1 = 3 := by
    intro e he
    have h2 := (List.of_mem_zip he).1
    obtain ⟨c, hc, h3⟩ := List.mem_map.1 h2
    rw [← h3]
    exact hs c hc
  have h2 : (groupKeys m.cells mat).map (·.2) = mat := by
    rw [groupKeys, List.map_snd_zip (by rw [List.length_map, hl])]
  conv_rhs => rw [← h2, List.map_map]
  refine List.map_congr_left fun e he => ?_
  rw [h1 e he]
  rfl

/-- The materials of a mesh that was loaded are the names of the groups. -/
theorem materials_read {m : FlacMesh} {mat : List ℤ} {gs : List ℕ} {fields : List (Str × ℕ × ℕ)}
    (hd : Describes m mat gs fields) (hs : ∀ e ∈ typedCells m.cells, dimOf e.1 = 3)
    (hl : mat.length = (typedCells m.cells).length) (hne : mat ≠ []) (n : ℕ) :
    materials n (some (gs.map fun g : ℕ => (g : ℤ))) (fields.map fun e => (e.1, (e.2.1 : ℤ), (e.2.2 : ℤ))) =
      .names (mat.map (groupName m.fieldData 3)) := by
  have hnd : ((fields.map fun e => (e.1, (e.2.1 : ℤ), (e.2.2 : ℤ))).map (·.2.1)).Nodup := by
    have h1 : (fields.map fun e => (e.1, (e.2.1 : ℤ), (e.2.2 : ℤ))).map (·.2.1) =
        (fields.map (·.2.1)).map (fun g : ℕ => (g : ℤ)) := by
      rw [List.map_map, List.map_map]
      rfl
    rw [h1, hd.numbers]
    exact (List.nodup_range.map (add_left_injective 1)).map Nat.cast_injective
  have hm : (gs.map fun g : ℕ => (g : ℤ)).mapM
      (dictGet (fieldDict (fields.map fun e => (e.1, (e.2.1 : ℤ), (e.2.2 : ℤ))))) =
      .ok (mat.map (groupName m.fieldData 3)) := by
    rw [List.mapM_map, ← groupKeys_solid hs hl (g := groupName m.fieldData)]
    refine mapM_related hd.cells fun e g _ hmem => ?_
    exact fieldDict_get hnd (e := ((g : ℤ), (e.1 : ℤ))) (List.mem_map.2 ⟨_, hmem, rfl⟩)
  have hf : fields.map (fun e => (e.1, (e.2.1 : ℤ), (e.2.2 : ℤ))) ≠ [] := by
    intro h0
    have h0 := List.map_eq_nil_iff.1 h0
    subst h0
    have h2 := hd.cells
    cases hk : groupKeys m.cells mat with
    | nil =>
      have h3 := groupKeys_solid hs hl (g := fun _ _ => [])
      rw [hk] at h3
      cases mat with
      | nil => exact hne rfl
      | cons a b => cases h3
    | cons e l =>
      rw [hk] at h2
      cases h2 with
      | cons h _ => cases h
  unfold materials
  simp only [if_pos hf, hm]

/-- What was loaded is the mesh, but for the blocks of cells and the materials, which are names. -/
theorem flac_solid {num : Flt → Flt} {pos : P3 Flt → P3 Flt → P3 Flt → P3 Flt → Bool} {m : FlacMesh} {r : FlacRead}
    (h : FlacOk m) (hk : ZonesKept num pos m) (hm : SameMesh num pos m r) (hsg : SameGroups m r) :
    ∃ m', r.mesh = .ok m' ∧ m'.points = m.points ∧ typedCells m'.cells = typedCells m.cells ∧
      FullBlocks m'.cells ∧ ∀ n, materials n (m'.cellData.lookup "material".toList) m'.fieldData =
        match m.cellData.lookup "material".toList with
        | none => .numbers (List.replicate n 1)
        | some mat => .names (mat.map (groupName m.fieldData 3)) := by
  obtain ⟨zones, hc, hz⟩ := hm.cells
  obtain rfl := oriented_self hk.right hz
  have h2 : cornersOf 2 m.cells = [] := by
    unfold cornersOf
    rw [List.filterMap_eq_nil_iff]
    intro e he
    have h3 := hk.solid e he
    unfold dimOf at h3
    split
    · rename_i d t n hs
      rw [hs] at h3
      have h3 : d = 3 := h3
      rw [if_neg (by omega)]
    · rfl
  have hpts : m.points.map (pointMap num) = m.points := by
    conv_rhs => rw [← List.map_id m.points]
    refine List.map_congr_left fun q hq => ?_
    obtain ⟨h1, h2, h3⟩ := hk.digits q hq
    rw [pointMap, h1, h2, h3]
    rfl
  refine ⟨⟨m.points.map (pointMap num), r.cells, match r.group with
      | none => []
      | some gs => [("material".toList, gs.map fun g : ℕ => (g : ℤ))],
    r.fieldData.map fun e => (e.1, (e.2.1 : ℤ), (e.2.2 : ℤ))⟩, ?_, hpts, ?_, hm.full, ?_⟩
  · unfold FlacRead.mesh
    rw [hm.points, List.mapM_map]
    refine (congrArg (fun x : Except PyErr (List (P3 Flt)) => x >>= fun ps => Except.ok (FlacMesh.mk ps r.cells _ _))
      (mapM_ok (g := pointMap num) ?_)).trans rfl
    exact fun q _ => rfl
  · show typedCells r.cells = _
    rw [hc, h2, List.append_nil, hk.corners]
  · intro n
    rw [material_lookup hk.data]
    rw [SameGroups] at hsg
    cases hmat : materialOfCells m with
    | none =>
      rw [hmat] at hsg
      simp only
      rw [hsg.1]
      rfl
    | some mat =>
      rw [hmat] at hsg
      have hlen := materialOfCells_length h hmat
      have hne : mat ≠ [] := by
        intro h0
        rw [h0] at hlen
        exact hk.zones (List.length_eq_zero_iff.1 hlen.symm)
      simp only [if_neg hne] at hsg
      obtain ⟨gs, hgs, hd⟩ := hsg
      simp only
      rw [hgs]
      simp only [List.lookup_cons_self]
      exact materials_read hd hk.solid hlen hne n

theorem materials_named {m : FlacMesh} (h : FlacOk m) (hz : typedCells m.cells ≠ []) (hn : MaterialsNamed m) (n : ℕ)
    {mat : List ℤ} (hmat : m.cellData.lookup "material".toList = some mat) :
    materials n (some mat) m.fieldData = .names (mat.map (groupName m.fieldData 3)) := by
  have hmem : ("material".toList, mat) ∈ m.cellData := by
    obtain ⟨l1, l2, h1, -⟩ := List.lookup_eq_some_iff.1 hmat
    rw [h1]
    simp only [List.mem_append, List.mem_cons, true_or, or_true]
  have hnamed := hn.named _ hmem
  have hf : m.fieldData ≠ [] := by
    cases hm : mat with
    | nil =>
      have h1 := h.lengths _ hmem
      rw [hm] at h1
      exact absurd (List.length_eq_zero_iff.1 h1.symm) hz
    | cons k l =>
      obtain ⟨name, h1⟩ := hnamed k (by rw [hm]; exact List.mem_cons_self)
      exact List.ne_nil_of_mem h1
  unfold materials
  simp only [if_pos hf, mapM_ok (g := groupName m.fieldData 3) fun k hk => groupName_named hn.different (hnamed k hk)]

theorem solid_tough {m m' : FlacMesh} {r : FlacRead} (val : Flt → ℝ) (fl : ℝ → Flt) (a : ToughArgs)
    (labelLength : Option ℤ) (hb : FullBlocks m.cells) (h1 : r.mesh = .ok m') (h2 : m'.points = m.points)
    (h3 : typedCells m'.cells = typedCells m.cells) (h4 : FullBlocks m'.cells)
    (h5 : ∀ n, materials n (m'.cellData.lookup "material".toList) m'.fieldData =
      materials n (m.cellData.lookup "material".toList) m.fieldData) :
    saveFlacAsTough val fl a labelLength r = m.writeTough val fl a labelLength := by
  rw [saveFlacAsTough, h1, ok_bind]
  unfold FlacMesh.writeTough
  rw [h2]
  exact writeTough_congr fl a _ _ labelLength none [] rfl h3 h5 h4 hb

end Verif.Mesh
