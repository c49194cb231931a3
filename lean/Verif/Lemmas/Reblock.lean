import Verif.Spec.Reblock
import Verif.Model.MeshTough
import Verif.Model.Interpolate
import Verif.Lemmas.Layout
import Verif.Lemmas.Output
import Verif.Lemmas.TecplotMesh

/-!
# Lemmas about blocks of cells
-/

namespace Verif.Mesh
open Verif.Py Verif.Model Verif.Spec Verif.Props

/-- Loops over the blocks and the cells of each are loops over the cells. -/
theorem mapM_typed {β : Type} (f : CellType → List ℕ → Except PyErr β) (cells : List CellBlock) :
    (do let fs ← cells.mapM fun b => b.data.mapM (f b.type)
        (.ok fs.flatten : Except PyErr (List β))) = (typedCells cells).mapM fun e => f e.1 e.2 := by
  induction cells with
  | nil => rfl
  | cons b cells ih =>
    rw [typedCells_cons, List.mapM_append, ← ih, List.mapM_cons, List.mapM_map]
    have e : (fun c => f b.type c) = f b.type := rfl
    simp only [Function.comp_def, e]
    cases b.data.mapM (f b.type) with
    | error e => rfl
    | ok x =>
      cases cells.mapM fun b => b.data.mapM (f b.type) with
      | error e => rfl
      | ok y => rfl

theorem typedCells_snd (cells : List CellBlock) : (typedCells cells).map (·.2) = cells.flatMap (·.data) := by
  induction cells with
  | nil => rfl
  | cons b cells ih =>
    rw [typedCells_cons, List.map_append, ih, List.map_map, List.flatMap_cons]
    congr 1
    exact List.map_id _

theorem typedCells_nil {cells : List CellBlock} (h : FullBlocks cells) : typedCells cells = [] ↔ cells = [] := by
  constructor
  · intro h0
    cases cells with
    | nil => rfl
    | cons b cells =>
      rw [typedCells_cons, List.append_eq_nil_iff, List.map_eq_nil_iff] at h0
      exact absurd h0.1 (h b (by simp))
  · rintro rfl
    rfl

theorem centers_typed {K D : Type} [Field K] {m : Mesh K D} (h : FullBlocks m.cells) :
    centers m = if typedCells m.cells = [] then .error .valueError
      else (typedCells m.cells).mapM (fun e => (do
        let ps ← rowsAt m.points e.2
        .ok (mean ps) : Except PyErr (P3 K))) := by
  unfold centers
  simp only [typedCells_nil h]
  split
  · rfl
  · exact mapM_typed (fun _ c => do
      let ps ← rowsAt m.points c
      .ok (mean ps)) m.cells

theorem mapM_congr_mem {α β : Type} {f g : α → Except PyErr β} {l : List α} (h : ∀ x ∈ l, f x = g x) :
    l.mapM f = l.mapM g := by
  induction l with
  | nil => rfl
  | cons x l ih =>
    rw [List.mapM_cons, List.mapM_cons, h x (by simp), ih fun x hx => h x (by simp [hx])]

theorem volumes_typed {K D : Type} [Field K] [LinearOrder K] {m : Mesh K D} (h : FullBlocks m.cells) :
    volumes m = if typedCells m.cells = [] then .error .valueError
      else (typedCells m.cells).mapM (fun e => (do
        let ts ← tetras e.1
        cellVolume m.points ts e.2 : Except PyErr K)) := by
  unfold volumes
  simp only [typedCells_nil h]
  split
  · rfl
  · refine Eq.trans ?_ (mapM_typed (fun t c => do
      let ts ← tetras t
      cellVolume m.points ts c) m.cells)
    congr 1
    refine mapM_congr_mem fun b hb => ?_
    have hd := h b hb
    rw [if_neg hd]
    cases ht : tetras b.type with
    | error e =>
      cases hb : b.data with
      | nil => exact absurd hb hd
      | cons c cs => rfl
    | ok ts => rfl

theorem faces_typed (cells : List CellBlock) :
    faces cells = (typedCells cells).mapM (fun e => (do
      let t ← faceTable e.1
      t.mapM (rowsAt e.2) : Except PyErr (List (List ℕ)))) :=
  mapM_typed (fun t c => do
    let t ← faceTable t
    t.mapM (rowsAt c)) cells

/-- A mesh with an empty block has no volumes. -/
theorem volumes_empty {K D : Type} [Field K] [LinearOrder K] {m : Mesh K D} (h : ¬ FullBlocks m.cells)
    (vs : List K) : volumes m ≠ .ok vs := by
  unfold volumes
  intro hv
  split at hv
  · cases hv
  · apply h
    obtain ⟨x, hx, -⟩ := bind_eq_ok.1 hv
    intro b hb h0
    have hfa := mapM_eq_ok hx
    have : ∀ {l : List CellBlock} {ys : List (List K)}, List.Forall₂ (fun b y => (if b.data = [] then
        .error .valueError else do
          let ts ← tetras b.type
          b.data.mapM (cellVolume m.points ts) : Except PyErr (List K)) = .ok y) l ys → b ∉ l := by
      intro l ys hf
      induction hf with
      | nil => simp
      | cons h1 _ ih =>
        rw [List.mem_cons, not_or]
        refine ⟨?_, ih⟩
        rintro rfl
        rw [if_pos h0] at h1
        cases h1
    exact this hfa hb

end Verif.Mesh
