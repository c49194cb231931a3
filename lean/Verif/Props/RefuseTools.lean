import Verif.Props.Extract
import Verif.Props.Export

/-!
# What the tools refuse (C90)
-/

namespace Verif.Model
open Verif.Py Verif.Mesh Verif.Spec Verif.Props

/-! ### toughio-extract -/

/-- The error for a file that is not a main output file: that of its reader, or what comes of
looking at the format of the last output. -/
def otherError {α : Type} : Except PyErr (List α) → PyErr
  | .error e => e
  | .ok [] => .indexError
  | .ok (_ :: _) => .valueError

theorem notTough_error {α : Type} (outs : Except PyErr (List α)) : notTough outs = .error (otherError outs) := by
  cases outs with
  | error e => rfl
  | ok outs => cases outs <;> rfl

/-- C90. A Tecplot, Petrasim or CSV file is refused with ValueError if it can be read and has an
output, with IndexError if it has none, and with the error of its reader otherwise. -/
theorem C90_extract_other (repr : Flt → Str) (mean : List Flt → Flt) (a : ExtractArgs) (lines mesh : List Str)
    {p : FileRead} {elems : Table Elem} (hc : a.connection = true → a.format = .csv)
    (hm : readFile a.labelLength mesh = .ok p) (he : p.elements = some elems) :
    (∀ t, outputType lines = .ok (t, .tecplot) →
      extract repr mean a (some lines) (some mesh) = .error (otherError (readTecplot lines none))) ∧
    (∀ t, outputType lines = .ok (t, .petrasim) →
      extract repr mean a (some lines) (some mesh) = .error (otherError (readPetrasim lines none))) ∧
    (outputType lines = .ok (.element, .csv) →
      extract repr mean a (some lines) (some mesh) = .error (otherError (readCsvElements lines none))) ∧
    (outputType lines = .ok (.connection, .csv) →
      extract repr mean a (some lines) (some mesh) = .error (otherError (readCsv .connection lines))) := by
  have hg : ¬ (a.connection = true ∧ a.format ≠ .csv) := fun h => h.2 (hc h.1)
  refine ⟨fun t ho => ?_, fun t ho => ?_, fun ho => ?_, fun ho => ?_⟩ <;>
  · unfold extract
    rw [if_neg hg]
    simp only
    rw [hm, ok_bind, he]
    simp only
    rw [ho, ok_bind]
    exact notTough_error _

example : outputType ["\"ELEM\",\"P\"\n".toList] = .ok (.element, .csv) ∧
    extract (fun _ => []) (fun _ => .nan) ⟨none, .csv, none, false, false⟩
      (some ["TIME [sec]  0.1\n".toList, "\"ELEM\",\"P\"\n".toList]) (some extractMesh) = .error .valueError := by
  decide +kernel

/-- A cell of the MESH file with three coordinates, each a float or missing. -/
def HasCenter (elems : List (Val × Elem)) (l : Str) (vs : List Val) : Prop :=
  ∃ e, dictGet elems (.str l) = .ok e ∧ e.center = .list vs ∧ vs.length = 3 ∧ ∀ v ∈ vs, v = .none ∨ ∃ x, v = .flt x

theorem HasCenter.centerOf {elems : List (Val × Elem)} {l : Str} {vs : List Val} (h : HasCenter elems l vs) :
    centerOf elems l = .ok vs := by
  obtain ⟨e, h1, h2, -⟩ := h
  unfold Model.centerOf
  rw [h1]
  simp only
  rw [h2]

theorem mapM_source {α β : Type} {f : α → Except PyErr β} {xs : List α} {ys : List β} (h : xs.mapM f = .ok ys)
    (y : β) (hy : y ∈ ys) : ∃ x ∈ xs, f x = .ok y := by
  have := mapM_eq_ok h
  clear h
  induction this with
  | nil => cases hy
  | cons hx _ ih =>
    rcases List.mem_cons.1 hy with rfl | hy
    · exact ⟨_, List.mem_cons_self, hx⟩
    · obtain ⟨x, hm, hx⟩ := ih hy
      exact ⟨x, List.mem_cons_of_mem _ hm, hx⟩

theorem coordinates_null {vs : List Val} (h : ∀ v ∈ vs, v = .none ∨ ∃ x, v = .flt x) (e : PyErr) :
    (∃ xs, vs.mapM (coordinate (.error e)) = .ok xs ∧ xs.length = vs.length ∧ Val.none ∉ vs) ∨
      (vs.mapM (coordinate (.error e)) = .error e ∧ Val.none ∈ vs) := by
  by_cases hn : Val.none ∈ vs
  · refine .inr ⟨mapM_error_of_mem (fun v hv => ?_) ⟨.none, hn, rfl⟩, hn⟩
    rcases h v hv with rfl | ⟨x, rfl⟩
    · exact .inr rfl
    · exact .inl ⟨x, rfl⟩
  · obtain ⟨xs, hx⟩ := mapM_exists (f := coordinate (.error e)) (xs := vs) (fun v hv => by
      rcases h v hv with rfl | ⟨x, rfl⟩
      · exact absurd hv hn
      · exact ⟨x, rfl⟩)
    exact .inl ⟨xs, hx, (mapM_eq_ok hx).length_eq.symm, hn⟩

/-- The centres of cells, one of which lacks a coordinate. -/
theorem centers_null {elems : List (Val × Elem)} {ls : List Str} (h : ∀ l ∈ ls, ∃ vs, HasCenter elems l vs) (e : PyErr) :
    ∃ cs, ls.mapM (centerOf elems) = .ok cs ∧
      (((∃ l ∈ ls, ∃ vs, HasCenter elems l vs ∧ Val.none ∈ vs) ∧
        (cs.mapM fun c => c.mapM (coordinate (.error e))) = .error e) ∨
      ((¬ ∃ l ∈ ls, ∃ vs, HasCenter elems l vs ∧ Val.none ∈ vs) ∧
        ∃ rows, (cs.mapM fun c => c.mapM (coordinate (.error e))) = .ok rows ∧ ∀ r ∈ rows, r.length = 3)) := by
  obtain ⟨cs, hcs⟩ := mapM_exists (f := centerOf elems) (xs := ls) (fun l hl => by
    obtain ⟨vs, hv⟩ := h l hl
    exact ⟨vs, hv.centerOf⟩)
  refine ⟨cs, hcs, ?_⟩
  have hmem : ∀ c ∈ cs, ∃ l ∈ ls, HasCenter elems l c := by
    intro c hc
    obtain ⟨l, hl, hlc⟩ := mapM_source hcs c hc
    obtain ⟨vs, hv⟩ := h l hl
    rw [hv.centerOf] at hlc
    cases hlc
    exact ⟨l, hl, hv⟩
  by_cases hn : ∃ c ∈ cs, Val.none ∈ c
  · left
    refine ⟨?_, mapM_error_of_mem (fun c hc => ?_) ?_⟩
    · obtain ⟨c, hc, hn⟩ := hn
      obtain ⟨l, hl, hv⟩ := hmem c hc
      exact ⟨l, hl, c, hv, hn⟩
    · obtain ⟨l, hl, hv⟩ := hmem c hc
      obtain ⟨_, -, -, -, h4⟩ := hv
      rcases coordinates_null h4 e with ⟨xs, hx, -⟩ | ⟨hx, -⟩
      · exact .inl ⟨xs, hx⟩
      · exact .inr hx
    · obtain ⟨c, hc, hn⟩ := hn
      obtain ⟨l, hl, hv⟩ := hmem c hc
      obtain ⟨_, -, -, -, h4⟩ := hv
      rcases coordinates_null h4 e with ⟨xs, hx, -, h5⟩ | ⟨hx, -⟩
      · exact absurd hn h5
      · exact ⟨c, hc, hx⟩
  · right
    refine ⟨?_, ?_⟩
    · rintro ⟨l, hl, vs, hv, hvn⟩
      have : vs ∈ cs := by
        obtain ⟨i, hi⟩ := List.mem_iff_getElem?.1 hl
        have := (List.forall₂_iff_get.1 (mapM_eq_ok hcs))
        obtain ⟨hlen, hget⟩ := this
        obtain ⟨hi', hi⟩ := List.getElem?_eq_some_iff.1 hi
        have hg := hget i hi' (by omega)
        simp only [List.get_eq_getElem] at hg
        rw [hi, hv.centerOf] at hg
        cases hg
        exact List.getElem_mem _
      exact hn ⟨vs, this, hvn⟩
    · obtain ⟨rows, hr⟩ := mapM_exists (f := fun c : List Val => c.mapM (coordinate (.error e))) (xs := cs) (fun c hc => by
        obtain ⟨l, hl, hv⟩ := hmem c hc
        obtain ⟨_, -, -, -, h4⟩ := hv
        rcases coordinates_null h4 e with ⟨xs, hx, -⟩ | ⟨hx, h5⟩
        · exact ⟨xs, hx⟩
        · exact absurd ⟨c, hc, h5⟩ hn)
      refine ⟨rows, hr, fun r hr' => ?_⟩
      obtain ⟨c, hc, hx⟩ := mapM_source hr r hr'
      obtain ⟨l, hl, hv⟩ := hmem c hc
      obtain ⟨_, -, -, h3, -⟩ := hv
      exact (mapM_eq_ok hx).length_eq.symm.trans h3

/-- C90. A connection with a cell that lacks a coordinate is refused with TypeError. -/
theorem C90_extract_null (repr : Flt → Str) (mean : List Flt → Flt) (a : ExtractArgs) (lines mesh : List Str)
    {p : FileRead} {elems : Table Elem} {outs : List (Output (List Str) Flt)} {out : Output (List Str) Flt} {t : OutType}
    (hc : a.connection = true) (hf : a.format = .csv)
    (hm : readFile a.labelLength mesh = .ok p) (he : p.elements = some elems)
    (ho : outputType lines = .ok (t, .tough)) (hr : readListing .connection a.labelLength lines = .ok outs)
    (hl : outs.getLast? = some out)
    (hk : ∀ l ∈ out.labels, ∀ c ∈ l, ∃ vs, HasCenter elems.1 c vs)
    (hn : ∃ l ∈ out.labels, ∃ c ∈ l, ∃ vs, HasCenter elems.1 c vs ∧ Val.none ∈ vs) :
    extract repr mean a (some lines) (some mesh) = .error .typeError := by
  have hmean : ∀ l ∈ out.labels, (∃ r, meanCenter mean elems.1 l = .ok r) ∨ meanCenter mean elems.1 l = .error .typeError := by
    intro l hl
    obtain ⟨cs, hcs, h⟩ := centers_null (hk l hl) .typeError
    unfold meanCenter
    rw [hcs, ok_bind]
    rcases h with ⟨-, h⟩ | ⟨-, rows, h, h3⟩
    · exact .inr (by rw [h]; rfl)
    · rw [h, ok_bind, if_pos (rectangular_of h3)]
      exact .inl ⟨_, rfl⟩
  unfold extract
  rw [if_neg (by simp [hf])]
  simp only
  rw [hm, ok_bind, he]
  simp only
  rw [ho, ok_bind]
  simp only
  rw [if_pos hc]
  unfold extractConnections
  rw [hr, ok_bind, hl]
  simp only
  unfold connPoints
  rw [mapM_error_of_mem hmean]
  · rfl
  · obtain ⟨l, hl, hc⟩ := hn
    obtain ⟨cs, hcs, h⟩ := centers_null (hk l hl) .typeError
    refine ⟨l, hl, ?_⟩
    unfold meanCenter
    rw [hcs, ok_bind]
    rcases h with ⟨-, h⟩ | ⟨h, -⟩
    · rw [h]; rfl
    · exact absurd hc h

/-- A connection to a cell without coordinates. -/
example : extract (fun _ => []) (fun _ => .nan) ⟨none, .csv, none, false, true⟩
    (some (listingLines extractHead [exampleConnection])) (some nullMesh) = .error .typeError := by
  decide +kernel

/-- C90. So is a cell that lacks a coordinate, if the file is not a CSV file; a table without any
cell is refused with ValueError. -/
theorem C90_extract_elements (repr : Flt → Str) (mean : List Flt → Flt) (a : ExtractArgs) (lines mesh : List Str)
    {p : FileRead} {elems : Table Elem} {outs : List (Output Str Flt)} {out : Output Str Flt} {t : OutType}
    (hc : a.connection = false)
    (hm : readFile a.labelLength mesh = .ok p) (he : p.elements = some elems)
    (ho : outputType lines = .ok (t, .tough)) (hr : readListingElements a.labelLength lines none = .ok outs)
    (hl : outs.getLast? = some out) :
    (out.labels = [] → extract repr mean a (some lines) (some mesh) = .error .valueError) ∧
    (a.format ≠ .csv → (a.split = false ∨ outs.length = 1) → (∀ c ∈ out.labels, ∃ vs, HasCenter elems.1 c vs) →
      (∃ c ∈ out.labels, ∃ vs, HasCenter elems.1 c vs ∧ Val.none ∈ vs) →
      extract repr mean a (some lines) (some mesh) = .error .typeError) := by
  have key : extract repr mean a (some lines) (some mesh) = extractElements repr a elems.1 lines := by
    unfold extract
    rw [if_neg (by simp [hc])]
    simp only
    rw [hm, ok_bind, he]
    simp only
    rw [ho, ok_bind]
    simp only
    rw [if_neg (by simp [hc])]
  rw [key]
  unfold extractElements
  rw [hr, ok_bind, hl]
  simp only
  refine ⟨fun h0 => ?_, fun hf hs hk hn => ?_⟩
  · unfold cellPoints
    rw [h0]
    rfl
  · rw [if_neg (by
      rintro (h | h)
      · exact hf h
      · apply h
        rcases hs with hs | hs <;> simp [hs])]
    obtain ⟨cs, hcs, h⟩ := centers_null hk .typeError
    unfold cellPoints
    rw [hcs, ok_bind]
    rcases h with ⟨-, h⟩ | ⟨h, -⟩
    · rw [if_neg]
      · rw [h]; rfl
      · intro h0
        obtain ⟨c, hc, -⟩ := hn
        have := (mapM_eq_ok hcs).length_eq
        rw [List.isEmpty_iff.1 h0] at this
        rw [List.length_eq_zero_iff.1 this] at hc
        cases hc
    · exact absurd hn h

/-- Cells without coordinates in a Tecplot file. -/
example : extract (fun _ => []) (fun _ => .nan) ⟨none, .tecplot, none, false, false⟩
    (some (listingLines extractHead [exampleListing])) (some nullMesh) = .error .typeError := by
  decide +kernel

end Verif.Model

namespace Verif.Mesh
open Verif.Py Verif.Model Verif.Spec Verif.Props Verif.Lemmas

/-! ### toughio-export -/

section
variable {K T : Type} [Field K] [LinearOrder K]
  (delaunay : List (List K) → Except PyErr (List (List ℕ))) (argsort : List T → List ℕ) (ofNat : ℕ → T)
  (readOn : Mesh K (Row K) → ExportOut K T → Except PyErr (Mesh K (Row K))) (len : Option ℤ)

/-- An output for which a mesh is to be made and that gets so far. -/
structure MakesMesh (a : ExportArgs K) (mesh : MeshArg K) (outs : List (ExportOut K T)) (o : ExportOut K T) : Prop where
  format : a.format ≠ .xdmf
  chosen : Chosen a.timeStep outs o
  none : NoMesh mesh o.tecplot
  origin : mesh = .absent → a.voxelize = true → ∃ x y z, a.origin = some [x, y, z]

theorem MakesMesh.refused {a : ExportArgs K} {mesh : MeshArg K} {outs : List (ExportOut K T)} {o : ExportOut K T}
    (h : MakesMesh a mesh outs o) {e : PyErr} (he : exportFresh delaunay a o.data = .error e) :
    exportCmd delaunay argsort ofNat readOn len a mesh (some (.ok outs)) = .error e := by
  have h1 : mesh ≠ .missing := by
    rcases h.none with rfl | ⟨-, h⟩
    · simp
    · exact h
  unfold exportCmd
  simp only
  rw [if_neg (by cases mesh <;> simp_all), if_neg, ok_bind, if_pos h.format, chosen_ok h.chosen, ok_bind,
    exportOne_none h.none, he]
  · rfl
  · rintro ⟨g1, g2, g3⟩
    have : mesh = .absent := by cases mesh <;> simp_all
    obtain ⟨x, y, z, ho⟩ := h.origin this g2
    rw [ho] at g3
    simp at g3

theorem coordColumn_mem {data : List (Str × List K)} (hn : (data.map (·.1)).Nodup) {n : ℕ} {k : Str} {v : List K}
    (h : (k, v) ∈ data) : coordColumn data n k = v := by
  unfold coordColumn
  rw [Verif.Model.dictGet_mem hn h]

/-- C90. An output without any array has no first one (StopIteration); coordinates on all three axes
that are not equally many are refused with ValueError. -/
theorem C90_export_columns (a : ExportArgs K) (mesh : MeshArg K) (outs : List (ExportOut K T)) (o : ExportOut K T)
    (h : MakesMesh a mesh outs o) :
    (o.data = [] → exportCmd delaunay argsort ofNat readOn len a mesh (some (.ok outs)) = .error .stopIteration) ∧
    (∀ x y z, (o.data.map (·.1)).Nodup → ("X".toList, x) ∈ o.data → ("Y".toList, y) ∈ o.data →
      ("Z".toList, z) ∈ o.data → TwoValues x → TwoValues y → TwoValues z → ¬ (x.length = y.length ∧ y.length = z.length) →
      exportCmd delaunay argsort ofNat readOn len a mesh (some (.ok outs)) = .error .valueError) := by
  refine ⟨fun h0 => ?_, fun x y z hn hx hy hz tx ty tz hl => ?_⟩
  · apply h.refused
    unfold exportFresh baseMesh
    rw [h0]
    rfl
  · apply h.refused
    have hne : ∀ {l : List K}, TwoValues l → (unique l).length ≠ 1 := by
      intro l t h1
      have h0 : l ≠ [] := by
        obtain ⟨x, hx, -⟩ := t
        exact List.ne_nil_of_mem hx
      exact (one_unique h0).1 h1 t
    have hg : getPoints o.data = .error .valueError := by
      unfold getPoints
      cases hd : o.data with
      | nil => rw [hd] at hx; cases hx
      | cons kv r =>
        obtain ⟨k, v⟩ := kv
        rw [hd] at hn hx hy hz
        simp only
        rw [if_neg (fun h => h.1 (List.mem_map.2 ⟨_, hx, rfl⟩)), coordColumn_mem hn hx, coordColumn_mem hn hy,
          coordColumn_mem hn hz]
        rw [if_neg (fun h => hne ty h.1), if_neg (fun h => hne tx h.1), if_neg (fun h => hne tx h.1),
          if_neg (hne tx), if_neg (hne ty), if_neg (hne tz)]
        unfold pointStack
        rw [if_neg hl]
        rfl
    unfold exportFresh baseMesh
    rw [hg]
    rfl

example : MakesMesh (K := ℚ) (T := ℤ) { voxelArgs with voxelize := false } .absent
    [⟨false, 0, .unlabelled, [("X".toList, [1, 2]), ("Y".toList, [1, 2]), ("Z".toList, [1, 2, 3])]⟩]
    ⟨false, 0, .unlabelled, [("X".toList, [1, 2]), ("Y".toList, [1, 2]), ("Z".toList, [1, 2, 3])]⟩ :=
  ⟨fun h => (by cases h), .inl ⟨rfl, rfl⟩, .inl rfl, fun _ h => (by cases h)⟩

/-- C90. An array that has not one value for every point is refused with ValueError if the points are
triangulated; if they are voxelized, it is refused with IndexError if it is too short. -/
theorem C90_export_array (a : ExportArgs K) (mesh : MeshArg K) (outs : List (ExportOut K T)) (o : ExportOut K T)
    (h : MakesMesh a mesh outs o) (pts : List (P3 K)) (axis : List ℕ) (hp : getPoints o.data = .ok (pts, axis))
    (kv : Str × List K) (hkv : kv ∈ o.data) (hk : Plain kv.1) :
    (∀ cells, a.voxelize = false → (axis.length = 2 ∨ axis.length = 3) →
      delaunay (pts.map (columnsAt axis)) = .ok cells → kv.2.length ≠ pts.length →
      exportCmd delaunay argsort ofNat readOn len a mesh (some (.ok outs)) = .error .valueError) ∧
    (∀ x y z m, (a.voxelize = true ∨ axis.length = 1) → a.origin = some [x, y, z] →
      voxelize pts ⟨x, y, z⟩ a.layer "dfalt".toList = .ok m → kv.2.length < pts.length →
      exportCmd delaunay argsort ofNat readOn len a mesh (some (.ok outs)) = .error .indexError) := by
  have hmem : kv ∈ plainData o.data := by
    rw [plainData_eq]
    exact List.mem_filter.2 ⟨hkv, by simpa using hk⟩
  refine ⟨fun cells hv hx hd hl => ?_, fun x y z m hv ho hm hl => ?_⟩
  · apply h.refused
    have hb : baseMesh delaunay a o.data =
        .ok (rowMesh (gridMesh ((pts.map (columnsAt axis)).map padPoint) (if axis.length = 2 then .triangle else .tetra)
          cells "dfalt".toList), none) := by
      unfold baseMesh triangulate
      rw [hp, ok_bind]
      simp only
      rw [if_neg (by rcases hx with h | h <;> simp [hv, h]), if_neg (by omega), hd]
      rfl
    unfold exportFresh
    rw [hb, ok_bind]
    simp only
    have hn : ∀ (n : ℕ) (data : List (Str × List K)) (d : List (Str × List (Row K))), kv ∈ data → kv.2.length ≠ n →
        addArrays n d data = .error .valueError := by
      intro n data
      induction data with
      | nil => intro d h; cases h
      | cons e data ih =>
        intro d hm hn
        unfold addArrays
        rw [List.foldlM_cons]
        by_cases he : e.2.length ≠ n
        · rw [if_pos he]; rfl
        · rw [if_neg he, ok_bind]
          rcases List.mem_cons.1 hm with rfl | hm
          · exact absurd hn he
          · exact ih _ hm hn
    rw [hn _ _ _ hmem (by simpa [rowMesh, gridMesh] using hl)]
    rfl
  · apply h.refused
    have hb := baseMesh_voxel (delaunay := delaunay) (q := ⟨x, y, z⟩) hp ho hv hm
    unfold exportFresh
    rw [hb, ok_bind]
    simp only
    have hd : dataAt (voxelOrder pts) (plainData o.data) = .error .indexError := by
      have hrow : ∀ v : List K, (∃ w, rowsAt v (voxelOrder pts) = .ok w) ∨ rowsAt v (voxelOrder pts) = .error .indexError := by
        intro v
        by_cases hi : ∀ i ∈ voxelOrder pts, i < v.length
        · exact .inl (rowsAt_total hi)
        · push Not at hi
          obtain ⟨i, hi, hiv⟩ := hi
          refine .inr (mapM_error_of_mem (fun j _ => ?_) ⟨i, hi, ?_⟩)
          · cases v[j]? with
            | some p => exact .inl ⟨p, rfl⟩
            | none => exact .inr rfl
          · rw [List.getElem?_eq_none hiv]
      unfold dataAt
      refine mapM_error_of_mem (fun e _ => ?_) ⟨kv, hmem, ?_⟩
      · rcases hrow e.2 with ⟨w, hw⟩ | hw
        · exact .inl ⟨(e.1, w), by rw [hw]; rfl⟩
        · exact .inr (by rw [hw]; rfl)
      · have : rowsAt kv.2 (voxelOrder pts) = .error .indexError := by
          rcases hrow kv.2 with ⟨w, hw⟩ | hw
          · exfalso
            have h1 : pts.length - 1 ∈ voxelOrder pts :=
              (voxelOrder_perm pts).mem_iff.2 (List.mem_range.2 (by omega))
            obtain ⟨b, hb⟩ := mapM_mem hw h1
            rw [List.getElem?_eq_none (by omega)] at hb
            cases hb
          · exact hw
        rw [this]; rfl
    rw [hd]
    rfl

/-- Three points and two values. -/
example : exportCmd (T := ℤ) (fun _ => .ok [[0, 1, 2]]) sortIdx (fun n => n) (fun m _ => .ok m) none
    { voxelArgs with voxelize := false } .absent
    (some (.ok [{ planeOut with data := planeOut.data ++ [("S".toList, [1, 2])] }])) = .error .valueError ∧
    exportCmd (T := ℤ) (fun _ => .ok []) sortIdx (fun n => n) (fun m _ => .ok m) none voxelArgs .absent
    (some (.ok [{ flatOut with data := flatOut.data ++ [("S".toList, [1])] }])) = .error .indexError := by
  decide +kernel

/-- C90. A mesh that is given for a Tecplot output is ignored, but then there may be no origin for the
voxels: TypeError, or ValueError if the points are no grid. -/
theorem C90_export_origin (a : ExportArgs K) (mesh : MeshArg K) (outs : List (ExportOut K T)) (o : ExportOut K T)
    (hf : a.format ≠ .xdmf) (hc : Chosen a.timeStep outs o) (ht : o.tecplot = true) (hm : mesh ≠ .missing ∧ mesh ≠ .absent)
    (pts : List (P3 K)) (axis : List ℕ) (hp : getPoints o.data = .ok (pts, axis)) (hx : axis.length ≠ 1)
    (hv : a.voxelize = true) (ho : a.origin = none) :
    exportCmd delaunay argsort ofNat readOn len a mesh (some (.ok outs)) =
      .error (if (unique (pts.map (·.x))).length * (unique (pts.map (·.y))).length * (unique (pts.map (·.z))).length =
        pts.length then .typeError else .valueError) := by
  have h : MakesMesh a mesh outs o := ⟨hf, hc, .inr ⟨ht, hm.1⟩, fun h => absurd h hm.2⟩
  apply h.refused
  unfold exportFresh baseMesh
  rw [hp, ok_bind]
  simp only
  rw [if_pos (.inl hv), if_neg (fun h => hx h.1), ho]
  unfold voxelizeAt
  simp only
  by_cases hl : (unique (pts.map (·.x))).length * (unique (pts.map (·.y))).length *
      (unique (pts.map (·.z))).length = pts.length
  · rw [if_neg (not_not.2 hl), if_pos hl]; rfl
  · rw [if_pos hl, if_neg hl]; rfl

example : exportCmd (T := ℤ) (fun _ => .ok []) sortIdx (fun n => n) (fun m _ => .ok m) none
    { voxelArgs with origin := none } (.mesh pairMesh) (some (.ok [{ planeOut with tecplot := true }])) =
      .error .valueError := by
  decide +kernel

/-- C90. In that case an origin that has not three coordinates is refused. -/
theorem C90_export_origin_length (a : ExportArgs K) (mesh : MeshArg K) (outs : List (ExportOut K T)) (o : ExportOut K T)
    (hf : a.format ≠ .xdmf) (hc : Chosen a.timeStep outs o) (ht : o.tecplot = true) (hm : mesh ≠ .missing ∧ mesh ≠ .absent)
    (pts : List (P3 K)) (axis : List ℕ) (hp : getPoints o.data = .ok (pts, axis)) (hv : a.voxelize = true)
    (q : List K) (ho : a.origin = some q) (hq : q.length ≠ 3) :
    exportCmd delaunay argsort ofNat readOn len a mesh (some (.ok outs)) = .error .valueError := by
  have h : MakesMesh a mesh outs o := ⟨hf, hc, .inr ⟨ht, hm.1⟩, fun h => absurd h hm.2⟩
  apply h.refused
  unfold exportFresh baseMesh
  rw [hp, ok_bind]
  simp only
  rw [if_pos (.inl hv), ho]
  by_cases hx : axis.length = 1
  · rw [if_pos ⟨hx, by simpa using hq⟩]; rfl
  · rw [if_neg (fun h => hx h.1)]
    unfold voxelizeAt
    split
    · next e => cases e; exact absurd rfl hq
    · rfl
    · next e => cases e

example : exportCmd (T := ℤ) (fun _ => .ok []) sortIdx (fun n => n) (fun m _ => .ok m) none
    { voxelArgs with origin := some [(0 : ℚ), 0] } (.mesh pairMesh) (some (.ok [{ planeOut with tecplot := true }])) =
      .error .valueError := by
  decide +kernel

/-- C90. On a given mesh a series of outputs is refused if the first one has no labels or is one of
connections. -/
theorem C90_export_labels (a : ExportArgs K) (m : Mesh K (Row K)) (outs : List (ExportOut K T))
    (first last : ExportOut K T) (labels : List Str) (hf : a.format = .xdmf) (h1 : outs.head? = some first)
    (h2 : outs.getLast? = some last) (ht : last.tecplot = false) (hl : labeler (nCells m.cells) len = .ok labels) :
    (first.labels = .unlabelled →
      exportCmd delaunay argsort ofNat readOn len a (.mesh m) (some (.ok outs)) = .error .typeError) ∧
    (∀ ls, first.labels = .connection ls →
      exportCmd delaunay argsort ofNat readOn len a (.mesh m) (some (.ok outs)) =
        .error (if ls.length = labels.length then .typeError else .valueError)) := by
  have key : ∀ e, reorderOut labels first = .error e →
      exportCmd delaunay argsort ofNat readOn len a (.mesh m) (some (.ok outs)) = .error e := by
    intro e he
    unfold exportCmd
    simp only
    rw [if_neg (by simp), if_neg (by simp), ok_bind, if_neg (by rw [hf]; simp)]
    unfold exportAll
    rw [h1, h2]
    simp only
    rw [if_neg (by rw [ht]; simp)]
    unfold seriesOn
    rw [hl, ok_bind]
    cases outs with
    | nil => cases h1
    | cons o outs =>
      cases h1
      rw [List.mapM_cons, he]
      rfl
  refine ⟨fun h => key _ ?_, fun ls h => key _ ?_⟩
  · unfold reorderOut
    rw [h]
  · unfold reorderOut
    rw [h]
    simp only
    by_cases hc : ls.length = labels.length
    · rw [if_neg (not_not.2 hc), if_pos hc]
    · rw [if_pos hc, if_neg hc]

example : exportCmd (T := ℤ) (fun _ => .ok []) sortIdx (fun n => n) (fun m _ => .ok m) none
    { voxelArgs with format := .xdmf } (.mesh pairMesh) (some (.ok [{ flatOut with labels := .unlabelled }])) =
      .error .typeError := by
  decide +kernel

end

end Verif.Mesh
