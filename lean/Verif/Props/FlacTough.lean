import Verif.Lemmas.FlacTough
import Verif.Props.ConvertFlac

/-!
# C103: meshes that are saved for TOUGH by way of other formats
-/

namespace Verif.Mesh
open Verif.Py Verif.Model Verif.Spec Verif.Props

/-- The numbers of the coordinates decide on what is written. -/
theorem writeTough_numbers {D : Type} (val : Flt → ℝ) (fl : ℝ → Flt) (a : ToughArgs) (len : Option ℤ) {m : FlacMesh}
    {n : Mesh ℝ D} (h : OfNumbers val m.points m.cells m.fieldData n) (hb : FullBlocks m.cells) :
    m.writeTough val fl a len = writeTough fl a n len (m.cellData.lookup "material".toList) none [] := by
  refine writeTough_congr fl a _ n len none [] ?_ ?_ (fun _ => ?_) hb (by rw [h.cells]; exact hb)
  · have hp : ∀ {l : List (P3 Flt)} {l' : List (P3 ℝ)},
        List.Forall₂ (fun p q => q.x = val p.x ∧ q.y = val p.y ∧ q.z = val p.z) l l' →
        (l.map fun q => (⟨val q.x, val q.y, val q.z⟩ : P3 ℝ)) = l' := by
      intro l l' hp
      induction hp with
      | nil => rfl
      | @cons p q l l' hq _ ih =>
        obtain ⟨x, y, z⟩ := q
        obtain ⟨h1, h2, h3⟩ := hq
        simp only at h1 h2 h3
        rw [List.map_cons, ih, h1, h2, h3]
    exact hp h.points
  · show typedCells m.cells = _
    rw [h.cells]
  · show materials _ _ m.fieldData = _
    rw [h.names]

/-- C103. A text file for FLAC3D that is loaded and saved for TOUGH gives the files of the mesh
itself.

Left out: materials without names (the claim is violated for them, as shown below), zones that are
not right-handed, coordinates of more digits than are written, and what C66 leaves out. -/
theorem C103_flac_partial (p : ℕ) (pos : P3 Flt → P3 Flt → P3 Flt → P3 Flt → Bool) (version date : Str)
    {m : FlacMesh} (h : FlacOk m) (hg : ∀ mat, materialOfCells m = some mat → TextGroupsOk m mat)
    (hk : ZonesKept (quant p) pos m) (hn : MaterialsNamed m) (hb : FullBlocks m.cells) :
    ∃ lines r, writeFlac p pos version date m = .ok lines ∧ readFlac lines = .ok r ∧
      ∀ (D : Type) (val : Flt → ℝ) (n : Mesh ℝ D), OfNumbers val m.points m.cells m.fieldData n → ∀ fl a len,
        saveFlacAsTough val fl a len r = writeTough fl a n len (m.cellData.lookup "material".toList) none [] := by
  obtain ⟨r, h1, h2, h3⟩ := C66_round_trip_partial p pos version date h hg
  obtain ⟨lines, hw, hr⟩ := bind_eq_ok.1 h1
  obtain ⟨m', e1, e2, e3, e4, e5⟩ := flac_solid h hk h2 h3
  refine ⟨lines, r, hw, hr, fun D val n hv fl a len =>
    (solid_tough val fl a len hb e1 e2 e3 e4 fun n => (e5 n).trans ?_).trans (writeTough_numbers val fl a len hv hb)⟩
  cases hl : m.cellData.lookup "material".toList with
  | none => rfl
  | some mat => exact (materials_named h hk.zones hn n hl).symm

/-- C103. So it is for binary files. -/
theorem C103_flac_binary_partial (pos : P3 Flt → P3 Flt → P3 Flt → P3 Flt → Bool)
    {m : FlacMesh} (h : FlacOk m) (hd : BinOk m) (hg : ∀ mat, materialOfCells m = some mat → BinGroupsOk m mat)
    (hk : ZonesKept id pos m) (hn : MaterialsNamed m) (hb : FullBlocks m.cells) :
    ∃ bytes r, writeFlacBin pos m = .ok bytes ∧ readFlacBin bytes = .ok r ∧
      ∀ (D : Type) (val : Flt → ℝ) (n : Mesh ℝ D), OfNumbers val m.points m.cells m.fieldData n → ∀ fl a len,
        saveFlacAsTough val fl a len r = writeTough fl a n len (m.cellData.lookup "material".toList) none [] := by
  obtain ⟨r, h1, h2, h3⟩ := C67_round_trip_partial pos h hd hg
  obtain ⟨bytes, hw, hr⟩ := bind_eq_ok.1 h1
  obtain ⟨m', e1, e2, e3, e4, e5⟩ := flac_solid h hk h2 h3
  refine ⟨bytes, r, hw, hr, fun D val n hv fl a len =>
    (solid_tough val fl a len hb e1 e2 e3 e4 fun n => (e5 n).trans ?_).trans (writeTough_numbers val fl a len hv hb)⟩
  cases hl : m.cellData.lookup "material".toList with
  | none => rfl
  | some mat => exact (materials_named h hk.zones hn n hl).symm

/-- A tetrahedron and a wedge that is right-handed for FLAC3D. -/
def zonesExample : FlacMesh where
  points := rightExample.points
  cells := [⟨.tetra, [[0, 1, 2, 3]]⟩, ⟨.wedge, [[0, 2, 1, 3, 5, 4]]⟩]
  cellData := [("material".toList, [7, 4])]
  fieldData := [("SAND".toList, 4, 3), ("CLAY".toList, 7, 3)]

theorem zonesExample_material : materialOfCells zonesExample = some [7, 4] := by decide

theorem zonesExample_ok : FlacOk zonesExample where
  cells := ⟨⟨.tetra, [[0, 1, 2, 3]]⟩, by decide, by decide⟩
  vertices := by
    intro b hb d t n hs
    fin_cases hb <;> cases hs <;> decide
  lengths := by decide

theorem zonesExample_groups : TextGroupsOk zonesExample [7, 4] where
  known := by decide
  order := by decide
  different := by decide +kernel
  words := by decide +kernel
  single := by decide +kernel

theorem zonesExample_kept {num : Flt → Flt}
    (hq : ∀ q ∈ zonesExample.points, num q.x = q.x ∧ num q.y = q.y ∧ num q.z = q.z) :
    ZonesKept num turnsRight zonesExample where
  zones := by decide
  solid := by decide
  corners := by decide
  right := by
    intro e he
    have hl : cornersOf 3 zonesExample.cells = [(.tetra, [0, 1, 2, 3]), (.wedge, [0, 2, 1, 3, 5, 4])] := by decide
    rw [hl] at he
    rw [isRightHanded_iff]
    fin_cases he <;> decide +kernel
  digits := hq
  data := by decide

theorem zonesExample_named : MaterialsNamed zonesExample where
  different := by decide
  named := by
    intro e he k hk
    fin_cases he
    fin_cases hk
    · exact ⟨"CLAY".toList, by decide⟩
    · exact ⟨"SAND".toList, by decide⟩

example : FlacOk zonesExample ∧ (∀ mat, materialOfCells zonesExample = some mat → TextGroupsOk zonesExample mat) ∧
    ZonesKept (quant 16) turnsRight zonesExample ∧ MaterialsNamed zonesExample ∧ FullBlocks zonesExample.cells := by
  refine ⟨zonesExample_ok, fun mat hm => ?_, zonesExample_kept fun q hq => ?_, zonesExample_named, by decide⟩
  · rw [zonesExample_material] at hm
    cases hm
    exact zonesExample_groups
  · obtain ⟨h1, h2, h3⟩ := rightExample_doubles q hq
    exact ⟨quant_double (le_refl _) h1, quant_double (le_refl _) h2, quant_double (le_refl _) h3⟩

example : FlacOk zonesExample ∧ BinOk zonesExample ∧
    (∀ mat, materialOfCells zonesExample = some mat → BinGroupsOk zonesExample mat) ∧
    ZonesKept id turnsRight zonesExample ∧ MaterialsNamed zonesExample ∧ FullBlocks zonesExample.cells := by
  refine ⟨zonesExample_ok, ⟨rightExample_doubles, by decide, by decide⟩, fun mat hm => ?_,
    zonesExample_kept fun q hq => ⟨rfl, rfl, rfl⟩, zonesExample_named, by decide⟩
  rw [zonesExample_material] at hm
  cases hm
  exact ⟨zonesExample_groups.toGroupsOk, by decide +kernel, by decide +kernel⟩

example (val : Flt → ℝ) : OfNumbers val zonesExample.points zonesExample.cells zonesExample.fieldData
    (⟨zonesExample.points.map fun q => ⟨val q.x, val q.y, val q.z⟩, zonesExample.cells, [], [], zonesExample.fieldData⟩ :
      Mesh ℝ ℤ) :=
  ⟨List.forall₂_map_right_iff.2 (List.forall₂_same.2 fun _ _ => ⟨rfl, rfl, rfl⟩), rfl, rfl⟩

/-- C103 is violated by materials without names: a file for FLAC3D makes names of their numbers.
The mesh itself would be written with the numbers, which TOUGH takes for the places of the rocks in
its input file. -/
theorem C103_numbers_violated (p : ℕ) (pos : P3 Flt → P3 Flt → P3 Flt → P3 Flt → Bool) (version date : Str)
    {m : FlacMesh} (h : FlacOk m) (hg : ∀ mat, materialOfCells m = some mat → TextGroupsOk m mat)
    (hk : ZonesKept (quant p) pos m) (hf : m.fieldData = []) {mat : List ℤ}
    (hm : m.cellData.lookup "material".toList = some mat) :
    ∃ lines r m', writeFlac p pos version date m = .ok lines ∧ readFlac lines = .ok r ∧ r.mesh = .ok m' ∧
      (∀ n, materials n (m'.cellData.lookup "material".toList) m'.fieldData =
        .names (mat.map fun k => if k = 0 then "None".toList else intStr k)) ∧
      ∀ n, materials n (m.cellData.lookup "material".toList) m.fieldData = .numbers mat := by
  obtain ⟨r, h1, h2, h3⟩ := C66_round_trip_partial p pos version date h hg
  obtain ⟨lines, hw, hr⟩ := bind_eq_ok.1 h1
  obtain ⟨m', e1, e2, e3, e4, e5⟩ := flac_solid h hk h2 h3
  refine ⟨lines, r, m', hw, hr, e1, fun n => (e5 n).trans ?_, fun n => ?_⟩
  · rw [hm, hf]
    rfl
  · rw [hm, hf]
    rfl

/-- The zones without names. -/
def namelessExample : FlacMesh := { zonesExample with fieldData := [] }

example : FlacOk namelessExample ∧
    (∀ mat, materialOfCells namelessExample = some mat → TextGroupsOk namelessExample mat) ∧
    ZonesKept (quant 16) turnsRight namelessExample ∧ namelessExample.fieldData = [] ∧
    namelessExample.cellData.lookup "material".toList = some [7, 4] := by
  have hk : ZonesKept (quant 16) turnsRight zonesExample := zonesExample_kept fun q hq => by
    obtain ⟨h1, h2, h3⟩ := rightExample_doubles q hq
    exact ⟨quant_double (le_refl _) h1, quant_double (le_refl _) h2, quant_double (le_refl _) h3⟩
  refine ⟨⟨zonesExample_ok.cells, zonesExample_ok.vertices, zonesExample_ok.lengths⟩, fun mat hm => ?_,
    ⟨hk.zones, hk.solid, hk.corners, hk.right, hk.digits, hk.data⟩, rfl, by decide +kernel⟩
  have : materialOfCells namelessExample = some [7, 4] := by decide
  rw [this] at hm
  cases hm
  exact ⟨⟨by decide, by decide, by decide +kernel⟩, by decide +kernel, by decide +kernel⟩

/-- C103. What is written for these cells differs: numbers are right-aligned, names are not. -/
theorem C103_numbers_written (k : ℤ) (h : (intStr k).length < 5) :
    materialVal (padMaterial (.name (intStr k))) ≠ materialVal (padMaterial (.number k)) := by
  intro he
  have h0 : strip (intStr k) = intStr k := by simpa [padLeft, blanks] using strip_intStr 0 k
  have he : padRight 5 (strip (intStr k)) = padLeft 5 (intStr k) := Val.str.inj he
  rw [h0, padRight, padLeft] at he
  obtain ⟨n, hn⟩ : ∃ n, 5 - (intStr k).length = n + 1 := ⟨5 - (intStr k).length - 1, by omega⟩
  obtain ⟨hne, hsp⟩ := word_intStr k
  rw [hn] at he
  cases hi : intStr k with
  | nil => exact hne hi
  | cons c l =>
    rw [hi] at he hsp
    rw [List.cons_append, blanks, List.replicate_succ, List.cons_append] at he
    obtain ⟨rfl, -⟩ := List.cons.inj he
    have := hsp ' ' List.mem_cons_self
    revert this
    decide

example : (intStr 7).length < 5 ∧ materialVal (padMaterial (.name (intStr 7))) = .str "7    ".toList ∧
    materialVal (padMaterial (.number 7)) = .str "    7".toList := by decide +kernel

/-- C103. An AVS-UCD file that is loaded and saved for TOUGH gives the files of the mesh itself with
numbers for materials.

Left out: names of materials, which these files do not have, and what C64 leaves out. -/
theorem C103_avs_partial (version : Str) {m : AvsMesh} (h : AvsOk m)
    (hn : ∀ e ∈ otherData m, ¬ IsMaterialName (underscored e.1)) {mats : List ℤ} (hm : MaterialsOf m mats)
    (hb : FullBlocks m.cells) :
    ∃ lines r, writeAvs version m = .ok lines ∧ (∀ junk, readAvs junk lines = .ok r) ∧
      ∀ (D : Type) (val : Flt → ℝ) (n : Mesh ℝ D), OfNumbers val m.points m.cells [] n → ∀ fl a len,
        saveAvsAsTough val fl a len r = writeTough fl a n len (some mats) none [] := by
  obtain ⟨lines, r, cells, h1, h2, h3, h4, h5⟩ := avs_flacMesh version h hn hm
  refine ⟨lines, r, h1, h2, fun D val n hv fl a len => ?_⟩
  have hn := writeTough_numbers val fl a len
    (m := ⟨m.points, m.cells, [("material".toList, mats)], []⟩) hv hb
  have hl : List.lookup "material".toList [("material".toList, mats)] = some mats := List.lookup_cons_self
  rw [hl] at hn
  rw [← hn, saveAvsAsTough, h3, ok_bind]
  exact writeTough_congr fl a _ _ len none [] rfl h4 (fun _ => rfl) h5 hb

example : AvsOk convertExample ∧ (∀ e ∈ otherData convertExample, ¬ IsMaterialName (underscored e.1)) ∧
    MaterialsOf convertExample [1, 2, -1] ∧ FullBlocks convertExample.cells :=
  ⟨convertExample_avs, by decide +kernel, materialsOf_kept (by decide +kernel), by decide⟩

end Verif.Mesh
