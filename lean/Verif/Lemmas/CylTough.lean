import Verif.Spec.CylTough
import Verif.Props.GridConn

/-!
# Lemmas on the connections of cylindrical grids (C82)
-/

namespace Verif.Mesh
open Verif.Py Verif.Model Verif.Spec Verif.Props

/-- The area of a face in a table. -/
def areaIn (areas : List (List ℝ)) (w : ℕ × ℕ × ℕ) : ℝ := ((areas.getD w.1 []).getD w.2.2 0)

theorem areaIn_eq {areas : List (List ℝ)} {w : ℕ × ℕ × ℕ} {row : List ℝ} {A : ℝ} (h1 : areas[w.1]? = some row)
    (h2 : row[w.2.2]? = some A) : areaIn areas w = A := by
  unfold areaIn
  rw [List.getD_eq_getElem?_getD, List.getD_eq_getElem?_getD, h1, Option.getD_some, h2, Option.getD_some]

/-- The interface with the area of another table. -/
theorem interfaceOf_areas {pts nodes : List (P3 ℝ)} {fs : List (List (List ℕ))} {normals : List (List (P3 ℝ))}
    {areas areas' : List (List ℝ)} {bounds : List Bool} {w : ℕ × ℕ × ℕ} {f : Interface} {row : List ℝ} {A : ℝ}
    (h : interfaceOf pts nodes fs normals areas bounds w = .ok f) (h1 : areas'[w.1]? = some row)
    (h2 : row[w.2.2]? = some A) :
    interfaceOf pts nodes fs normals areas' bounds w = .ok { f with area := A } := by
  unfold interfaceOf at h ⊢
  obtain ⟨c1, e1, h⟩ := bind_eq_ok.1 h
  obtain ⟨c2, e2, h⟩ := bind_eq_ok.1 h
  obtain ⟨r, e3, h⟩ := bind_eq_ok.1 h
  obtain ⟨face, e4, h⟩ := bind_eq_ok.1 h
  obtain ⟨v, e5, h⟩ := bind_eq_ok.1 h
  obtain ⟨p, e6, h⟩ := bind_eq_ok.1 h
  obtain ⟨ns, e7, h⟩ := bind_eq_ok.1 h
  obtain ⟨n, e8, h⟩ := bind_eq_ok.1 h
  obtain ⟨as, e9, h⟩ := bind_eq_ok.1 h
  obtain ⟨a, e10, h⟩ := bind_eq_ok.1 h
  obtain ⟨b1, e11, h⟩ := bind_eq_ok.1 h
  obtain ⟨b2, e12, h⟩ := bind_eq_ok.1 h
  cases h
  rw [e1, ok_bind, e2, ok_bind, e3, ok_bind, e4, ok_bind, e5, ok_bind, e6, ok_bind, e7, ok_bind, e8, ok_bind,
    itemAt_some h1, ok_bind, itemAt_some h2, ok_bind, e11, ok_bind, e12, ok_bind]

/-- The rows with the areas of another table. -/
theorem connRows_areas {opt : NodalDistance} {pts nodes : List (P3 ℝ)} {fs : List (List (List ℕ))}
    {normals : List (List (P3 ℝ))} {areas areas' : List (List ℝ)} {bounds : List Bool} {rows : List ConnRow}
    (h : connRowsOf opt pts nodes fs normals areas bounds = .ok rows)
    (hs : ∀ w ∈ writtenConnections (connectionsOf fs), ∃ row A, areas'[w.1]? = some row ∧ row[w.2.2]? = some A) :
    ∃ rows', connRowsOf opt pts nodes fs normals areas' bounds = .ok rows' ∧
      List.Forall₂ (fun r (r' : ConnRow) => ∃ w ∈ writtenConnections (connectionsOf fs), r.cell1 = w.1 ∧ r.cell2 = w.2.1 ∧
        r' = { r with area := areaIn areas' w }) rows rows' := by
  unfold connRowsOf at h ⊢
  simp only at h ⊢
  obtain ⟨is, hi, h⟩ := bind_eq_ok.1 h
  have hF := mapM_eq_ok hi
  by_cases h0 : writtenConnections (connectionsOf fs) = []
  · rw [if_pos h0] at h; cases h
  rw [if_neg h0] at h
  cases h
  clear * - hF hs h0
  generalize writtenConnections (connectionsOf fs) = ws at *
  have hi' : ws.mapM (interfaceOf pts nodes fs normals areas' bounds) =
      .ok (List.zipWith (fun w (f : Interface) => { f with area := areaIn areas' w }) ws is) := by
    apply mapM_of_forall₂
    clear h0
    induction hF with
    | nil => exact .nil
    | @cons w f ws is hf _ ih =>
      refine .cons ?_ (ih fun w hw => hs w (List.mem_cons_of_mem _ hw))
      obtain ⟨row, A, k1, k2⟩ := hs w List.mem_cons_self
      simp only [areaIn_eq k1 k2]
      exact interfaceOf_areas hf k1 k2
  rw [hi', ok_bind, if_neg h0]
  refine ⟨_, rfl, ?_⟩
  have key : ∀ (ws' : List (ℕ × ℕ × ℕ)) (is : List Interface), (∀ w ∈ ws', w ∈ ws) →
      List.Forall₂ (fun r (r' : ConnRow) => ∃ w ∈ ws, r.cell1 = w.1 ∧ r.cell2 = w.2.1 ∧
        r' = { r with area := areaIn areas' w })
      (List.zipWith (fun w (f : Interface) => (⟨w.1, w.2.1, isot f.line, (nodalDistances opt f).1, (nodalDistances opt f).2,
        f.area, angle f.line⟩ : ConnRow)) ws' is)
      (List.zipWith (fun w (f : Interface) => (⟨w.1, w.2.1, isot f.line, (nodalDistances opt f).1, (nodalDistances opt f).2,
        f.area, angle f.line⟩ : ConnRow)) ws'
        (List.zipWith (fun w (f : Interface) => { f with area := areaIn areas' w }) ws' is)) := by
    intro ws'
    induction ws' with
    | nil => intro is _; exact .nil
    | cons w ws' ih =>
      intro is hw
      cases is with
      | nil => exact .nil
      | cons f is =>
        simp only [List.zipWith_cons_cons]
        refine .cons ⟨w, hw w List.mem_cons_self, rfl, rfl, ?_⟩ (ih is fun w' h' => hw w' (List.mem_cons_of_mem _ h'))
        cases opt <;> rfl
  exact key ws is fun _ h => h

/-- A cylindrical grid is a structured grid with its own sizes. -/
theorem cyl_form {dr dz : List ℝ} {oz : Option ℝ} {layer : Bool} {material : Str} {m : CylMesh ℝ}
    (h : cylindricGrid dr dz oz layer material = .ok m) :
    structuredGrid dr [1] (some dz) ((some ⟨0, -(1 / 2), oz.getD (-dz.sum)⟩ : Option (P3 ℝ)).map fun p => [p.x, p.y, p.z])
      layer material = .ok m.mesh ∧ (∀ r ∈ dr, 0 < r) ∧ ∀ z ∈ dz, 0 < z := by
  obtain ⟨⟨p1, p2⟩, -⟩ := C41_cells dr dz oz layer material m h
  refine ⟨?_, p1, p2⟩
  unfold cylindricGrid at h
  rw [if_neg (not_not.2 p1), if_neg (not_not.2 p2)] at h
  obtain ⟨mesh, h1, h⟩ := bind_eq_ok.1 h
  cases h
  cases oz <;> exact h1

end Verif.Mesh
