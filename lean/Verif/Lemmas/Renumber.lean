import Verif.Spec.Renumber
import Verif.Lemmas.Moved
import Verif.Lemmas.Connections
import Verif.Model.MeshTough
import Mathlib.Data.List.Perm.Basic

/-!
# Lemmas: meshes whose points are renumbered (C105)
-/

namespace Verif.Mesh
open Verif.Py Verif.Model Verif.Spec

variable {σ : ℕ → ℕ}

theorem mapM_of_map {α β γ : Type} (g : α → β) (f : β → Except PyErr γ) (l : List α) :
    (l.map g).mapM f = l.mapM fun x => f (g x) := by
  induction l with
  | nil => rfl
  | cons x l ih => rw [List.map_cons, List.mapM_cons, List.mapM_cons, ih]

theorem mapM_same {α β : Type} {f g : α → Except PyErr β} {l : List α} (h : ∀ x, f x = g x) :
    l.mapM f = l.mapM g := by
  rw [funext h]

theorem rowsAt_renumbered {α : Type} {pts pts' : List α} (hp : ∀ i, pts'[σ i]? = pts[i]?) (c : List ℕ) :
    rowsAt pts' (c.map σ) = rowsAt pts c := by
  unfold rowsAt
  rw [mapM_of_map]
  exact mapM_same fun i => by rw [hp]

theorem itemAt_renumbered {α : Type} {pts pts' : List α} (hp : ∀ i, pts'[σ i]? = pts[i]?) (i : ℕ) :
    itemAt pts' (σ i) = itemAt pts i := by
  unfold itemAt
  rw [hp]

/-- The faces with the other numbers. -/
def renumbered (σ : ℕ → ℕ) (fs : List (List (List ℕ))) : List (List (List ℕ)) := fs.map (List.map (List.map σ))

theorem cellVolume_renumbered {pts pts' : List (P3 ℝ)} (hp : ∀ i, pts'[σ i]? = pts[i]?) (ts : List (List ℕ))
    (c : List ℕ) : cellVolume pts' ts (c.map σ) = cellVolume pts ts c := by
  unfold cellVolume
  congr 1
  refine mapM_same fun t => ?_
  rw [rowsAt_mapped]
  cases rowsAt c t with
  | error e => rfl
  | ok tt =>
    simp only [Except.map, ok_bind]
    rw [rowsAt_renumbered hp]

theorem faces_renumbered (σ : ℕ → ℕ) (cells : List CellBlock) :
    faces (cells.map fun b => ⟨b.type, b.data.map (List.map σ)⟩) = (faces cells).map (renumbered σ) := by
  unfold faces
  rw [mapM_of_map, mapM_map_ok (g := renumbered σ) (f := fun b : CellBlock => b.data.mapM fun c => do
    let t ← faceTable b.type
    t.mapM (rowsAt c))]
  · cases List.mapM (fun b : CellBlock => b.data.mapM fun c => (do
      let t ← faceTable b.type
      t.mapM (rowsAt c) : Except PyErr (List (List ℕ)))) cells with
    | error e => rfl
    | ok cs =>
      show Except.ok _ = Except.ok _
      unfold renumbered
      rw [List.map_flatten]
  · intro b _
    rw [mapM_of_map]
    refine mapM_map_ok fun c _ => ?_
    cases faceTable b.type with
    | error e => rfl
    | ok t =>
      simp only [ok_bind]
      exact mapM_map_ok fun i _ => rowsAt_mapped σ c i

theorem faceAt_renumbered {fs : List (List (List ℕ))} {i a : ℕ} {f : List ℕ} :
    FaceAt (renumbered σ fs) i a f ↔ ∃ g, FaceAt fs i a g ∧ g.map σ = f := by
  unfold FaceAt renumbered
  simp only [List.getElem?_map]
  constructor
  · rintro ⟨row, h1, h2⟩
    rw [Option.map_eq_some_iff] at h1
    obtain ⟨row0, e1, rfl⟩ := h1
    rw [List.getElem?_map, Option.map_eq_some_iff] at h2
    obtain ⟨g, e2, e3⟩ := h2
    exact ⟨g, ⟨row0, e1, e2⟩, e3⟩
  · rintro ⟨g, ⟨row, h1, h2⟩, rfl⟩
    exact ⟨row.map (List.map σ), by rw [h1]; rfl, by rw [List.getElem?_map, h2]; rfl⟩

theorem shared_renumbered (hσ : Function.Injective σ) {fs : List (List (List ℕ))} {i a j b : ℕ} :
    Shared (renumbered σ fs) i a j b ↔ Shared fs i a j b := by
  unfold Shared
  refine and_congr_right fun _ => ?_
  constructor
  · rintro ⟨f, g, h1, h2, h3⟩
    obtain ⟨f, h4, rfl⟩ := faceAt_renumbered.1 h1
    obtain ⟨g, h5, rfl⟩ := faceAt_renumbered.1 h2
    exact ⟨f, g, h4, h5, (List.map_perm_map_iff hσ).1 h3⟩
  · rintro ⟨f, g, h1, h2, h3⟩
    exact ⟨f.map σ, g.map σ, faceAt_renumbered.2 ⟨f, h1, rfl⟩, faceAt_renumbered.2 ⟨g, h2, rfl⟩, h3.map σ⟩

theorem mates_renumbered (hσ : Function.Injective σ) {fs : List (List (List ℕ))} {p q : ℕ × ℕ} :
    Mates (renumbered σ fs) p q ↔ Mates fs p q := by
  unfold Mates
  simp only [shared_renumbered hσ]

theorem connectionsOf_length (fs : List (List (List ℕ))) : (connectionsOf fs).length = fs.length := by
  unfold connectionsOf
  have h : ∀ (pairs : List ((ℕ × ℕ) × ℕ × ℕ)) (out : List (List ℤ)), (pairs.foldl
      (fun out e => setEntry (setEntry out e.1.1 e.1.2 e.2.1) e.2.1 e.2.2 e.1.1) out).length = out.length := by
    intro pairs
    induction pairs with
    | nil => intro out; rfl
    | cons e l ih =>
      intro out
      rw [List.foldl_cons, ih]
      unfold setEntry
      rw [List.length_modify, List.length_modify]
  rw [h, List.length_replicate]

theorem table_ext {t t' : List (List ℤ)} (hl : t.length = t'.length) (h : ∀ i a, tableAt t i a = tableAt t' i a) :
    t = t' := by
  refine List.ext_getElem hl fun i h1 h2 => List.ext_getElem? fun a => ?_
  have := h i a
  unfold tableAt at this
  rw [List.getElem?_eq_getElem h1, List.getElem?_eq_getElem h2] at this
  exact this

theorem connectionsOf_renumbered (hσ : Function.Injective σ) {fs : List (List (List ℕ))}
    (hlen : ∀ i a f, FaceAt fs i a f → f.length = 3 ∨ f.length = 4) :
    connectionsOf (renumbered σ fs) = connectionsOf fs := by
  have hlen' : ∀ i a f, FaceAt (renumbered σ fs) i a f → f.length = 3 ∨ f.length = 4 := by
    intro i a f hf
    obtain ⟨g, h1, rfl⟩ := faceAt_renumbered.1 hf
    rw [List.length_map]
    exact hlen i a g h1
  have hn : (renumbered σ fs).length = fs.length := List.length_map _
  refine table_ext (by rw [connectionsOf_length, connectionsOf_length, hn]) fun i a => ?_
  by_cases hia : i < fs.length ∧ a < 6
  · obtain ⟨h1, h2⟩ := entry_connectionsOf hlen i a hia.1 hia.2
    obtain ⟨h3, h4⟩ := entry_connectionsOf hlen' i a (by rw [hn]; exact hia.1) hia.2
    by_cases hq : ∃ q, Mates fs (i, a) q
    · obtain ⟨q, hq⟩ := hq
      rw [h1 q hq, h3 q ((mates_renumbered hσ).2 hq)]
    · rw [h2 hq, h4 fun ⟨q, h⟩ => hq ⟨q, (mates_renumbered hσ).1 h⟩]
  · rw [entry_connectionsOf_none i a hia, entry_connectionsOf_none i a (by rw [hn]; exact hia)]

theorem zipIdx_of_map {α β : Type} (g : α → β) (l : List α) (n : ℕ) :
    (l.map g).zipIdx n = (l.zipIdx n).map fun e => (g e.1, e.2) := by
  induction l generalizing n with
  | nil => rfl
  | cons x l ih => rw [List.map_cons, List.zipIdx_cons, List.zipIdx_cons, ih, List.map_cons]

theorem getFaces_renumbered (n : ℕ) (fs : List (List (List ℕ))) :
    getFaces n (renumbered σ fs) = (getFaces n fs).map fun o => (o.1.map σ, o.2) := by
  unfold getFaces renumbered
  rw [zipIdx_of_map, List.flatMap_map, List.map_flatMap]
  congr 1
  funext r
  rw [zipIdx_of_map, List.filter_map, List.map_map, List.map_map]
  congr 1
  refine List.filter_congr fun f _ => ?_
  simp

theorem facesInOrder_renumbered (fs : List (List (List ℕ))) :
    facesInOrder (renumbered σ fs) = (facesInOrder fs).map fun o => (o.1.map σ, o.2) := by
  unfold facesInOrder
  rw [getFaces_renumbered, getFaces_renumbered, List.map_append]

section Points
variable {pts pts' : List (P3 ℝ)} (hp : ∀ i, pts'[σ i]? = pts[i]?)
include hp

theorem triangleNormal_renumbered (is f : List ℕ) :
    triangleNormal pts' is (f.map σ) = triangleNormal pts is f := by
  unfold triangleNormal
  rw [rowsAt_mapped]
  cases rowsAt f is with
  | error e => rfl
  | ok t =>
    simp only [Except.map, ok_bind]
    rw [rowsAt_renumbered hp]

theorem faceArea_renumbered (f : List ℕ) : faceArea pts' (f.map σ) = faceArea pts f := by
  unfold faceArea
  rw [triangleNormal_renumbered hp, triangleNormal_renumbered hp, List.length_map]

theorem faceNormals_renumbered (fs : List (List (List ℕ))) :
    faceNormals pts' (renumbered σ fs) = faceNormals pts fs := by
  unfold faceNormals
  rw [facesInOrder_renumbered, mapM_of_map, List.map_map,
    mapM_same (g := fun o : List ℕ × ℕ × ℕ => triangleNormal pts [0, 1, 2] o.1)
      fun o => triangleNormal_renumbered hp [0, 1, 2] o.1]
  simp only [List.map_eq_nil_iff, renumbered, List.length_map, Function.comp_def]

theorem faceAreas_renumbered (fs : List (List (List ℕ))) :
    faceAreas pts' (renumbered σ fs) = faceAreas pts fs := by
  unfold faceAreas
  rw [facesInOrder_renumbered, mapM_of_map, List.map_map,
    mapM_same (g := fun o : List ℕ × ℕ × ℕ => faceArea pts o.1) fun o => faceArea_renumbered hp o.1]
  simp only [List.map_eq_nil_iff, renumbered, List.length_map, Function.comp_def]

theorem interfaceOf_renumbered (nodes : List (P3 ℝ)) (fs : List (List (List ℕ)))
    (normals : List (List (P3 ℝ))) (areas : List (List ℝ)) (bounds : List Bool) (w : ℕ × ℕ × ℕ) :
    interfaceOf pts' nodes (renumbered σ fs) normals areas bounds w =
      interfaceOf pts nodes fs normals areas bounds w := by
  unfold interfaceOf renumbered
  cases itemAt nodes w.1 with
  | error e => rfl
  | ok c1 =>
    cases itemAt nodes w.2.1 with
    | error e => rfl
    | ok c2 =>
      simp only [ok_bind]
      rw [itemAt_map]
      cases itemAt fs w.1 with
      | error e => rfl
      | ok row =>
        simp only [Except.map, ok_bind]
        rw [itemAt_map]
        cases itemAt row w.2.2 with
        | error e => rfl
        | ok face =>
          simp only [Except.map, ok_bind]
          rw [itemAt_map]
          cases itemAt face 0 with
          | error e => rfl
          | ok i =>
            simp only [Except.map, ok_bind]
            rw [itemAt_renumbered hp]

theorem connRowsOf_renumbered (hσ : Function.Injective σ) (opt : NodalDistance) (nodes : List (P3 ℝ))
    {fs : List (List (List ℕ))} (hlen : ∀ i a f, FaceAt fs i a f → f.length = 3 ∨ f.length = 4)
    (normals : List (List (P3 ℝ))) (areas : List (List ℝ)) (bounds : List Bool) :
    connRowsOf opt pts' nodes (renumbered σ fs) normals areas bounds =
      connRowsOf opt pts nodes fs normals areas bounds := by
  unfold connRowsOf
  rw [connectionsOf_renumbered hσ hlen, funext fun w => interfaceOf_renumbered hp nodes fs normals areas bounds w]

theorem qualities_renumbered (hσ : Function.Injective σ) (nodes : List (P3 ℝ))
    {fs : List (List (List ℕ))} (hlen : ∀ i a f, FaceAt fs i a f → f.length = 3 ∨ f.length = 4) :
    qualities pts' nodes (renumbered σ fs) = qualities pts nodes fs := by
  have hn : (renumbered σ fs).length = fs.length := List.length_map _
  unfold qualities
  rw [connectionsOf_renumbered hσ hlen, faceNormals_renumbered hp, hn]

end Points

theorem nCells_renumbered (σ : ℕ → ℕ) (cells : List CellBlock) :
    nCells (cells.map fun b => ⟨b.type, b.data.map (List.map σ)⟩) = nCells cells := by
  unfold nCells
  rw [List.map_map]
  congr 2
  funext b
  simp

end Verif.Mesh
