import Verif.Spec.MeshTough
import Verif.Lemmas.Interpolate
import Verif.Lemmas.Avsucd
import Verif.Lemmas.Connections

/-!
# Lemmas for C80
-/

namespace Verif.Mesh
open Verif.Py Verif.Model Verif.Spec

theorem allCells_typed (cells : List CellBlock) : allCells cells = (typedCells cells).map (·.2) := by
  unfold allCells typedCells
  rw [List.map_flatMap]
  congr 1
  funext b
  rw [List.map_map]
  exact (List.map_id _).symm

theorem mem_typed {cells : List CellBlock} {b : CellBlock} {c : List ℕ} (hb : b ∈ cells) (hc : c ∈ b.data) :
    (b.type, c) ∈ typedCells cells :=
  List.mem_flatMap.2 ⟨b, hb, List.mem_map.2 ⟨c, hc, rfl⟩⟩

theorem bind_exists {α β : Type} {x : Except PyErr α} {f : α → Except PyErr β} (hx : ∃ a, x = .ok a)
    (hf : ∀ a, ∃ b, f a = .ok b) : ∃ b, (x >>= f) = .ok b := by
  obtain ⟨a, rfl⟩ := hx
  exact hf a

/-- Volumes of solid cells exist. -/
theorem volumes_exist {D : Type} {m : Mesh ℝ D} (h : SolidMesh m.points m.cells) : ∃ vols, volumes m = .ok vols := by
  unfold volumes
  rw [if_neg h.any]
  have : ∃ vs, (m.cells.mapM fun b =>
      if b.data = [] then .error .valueError
      else do
        let ts ← tetras b.type
        b.data.mapM (Mesh.cellVolume m.points ts) : Except PyErr (List (List ℝ))) = .ok vs := by
    refine mapM_exists fun b hb => ?_
    rw [if_neg (h.blocks b hb)]
    have htet : ∀ c ∈ b.data, ∃ ts, tetras b.type = .ok ts ∧ ∀ t ∈ ts, t.length = 4 ∧ ∀ i ∈ t, i < c.length := by
      intro c hc
      obtain ⟨ps, h1, h2⟩ := h.solid _ (mem_typed hb hc)
      simp only at h1 h2
      rw [← h2]
      generalize b.type = ty at h1
      cases ty <;> simp only [reference, reduceCtorEq, Option.some.injEq] at h1 <;> subst h1 <;>
        exact ⟨_, rfl, by decide⟩
    obtain ⟨c0, hc0⟩ := List.exists_mem_of_ne_nil _ (h.blocks b hb)
    obtain ⟨ts, hts, -⟩ := htet c0 hc0
    rw [hts, ok_bind]
    refine mapM_exists fun c hc => ?_
    obtain ⟨ts', hts', hb4⟩ := htet c hc
    rw [hts] at hts'
    cases hts'
    unfold Mesh.cellVolume
    refine bind_exists (mapM_exists ?_) fun vs => ⟨_, rfl⟩
    intro t ht
    obtain ⟨hl, hi⟩ := hb4 t ht
    obtain ⟨tt, htt⟩ := rowsAt_total hi
    have hin : ∀ v ∈ tt, v < m.points.length := by
      intro v hv
      obtain ⟨i, -, hx⟩ := forall₂_mem_right (rowsAt_ok htt) hv
      exact h.inside _ (mem_typed hb hc) v (List.mem_of_getElem? hx)
    obtain ⟨ps, hps⟩ := rowsAt_total hin
    have hlen : ps.length = 4 := by
      rw [← (rowsAt_ok hps).length_eq, ← (rowsAt_ok htt).length_eq, hl]
    rw [htt, ok_bind, hps, ok_bind]
    match ps, hlen with
    | [p0, p1, p2, p3], _ => exact ⟨_, rfl⟩
  obtain ⟨vs, hvs⟩ := this
  exact ⟨_, by rw [hvs]; rfl⟩

/-- The cells written, in order. -/
theorem toughCells_ok {fl : ℝ → Flt} {labels : List Str} {mats : List Material} {vols : List ℝ} {bounds : List Bool}
    {nodes : List (P3 ℝ)} {n : ℕ} (h1 : labels.length = n) (h2 : mats.length = n) (h3 : vols.length = n)
    (h4 : bounds.length = n) (h5 : nodes.length = n) :
    (toughCells fl labels mats vols bounds nodes).map (·.label) = labels ∧
    ∀ (i : ℕ) c, (toughCells fl labels mats vols bounds nodes)[i]? = some c → mats[i]? = some c.material ∧
      (∃ v, vols[i]? = some v ∧ c.volume = fl v) ∧ bounds[i]? = some c.bound ∧
      ∃ p, nodes[i]? = some p ∧ c.x = fl p.x ∧ c.y = fl p.y ∧ c.z = fl p.z := by
  constructor
  · unfold toughCells
    rw [List.map_map]
    exact List.map_fst_zip (by simp [h1, h2, h3, h4, h5])
  · intro i c hc
    unfold toughCells at hc
    rw [List.getElem?_map, Option.map_eq_some_iff] at hc
    obtain ⟨e, he, rfl⟩ := hc
    rw [List.getElem?_zip_eq_some, List.getElem?_zip_eq_some, List.getElem?_zip_eq_some,
      List.getElem?_zip_eq_some] at he
    exact ⟨he.2.1, ⟨_, he.2.2.1, rfl⟩, he.2.2.2.1, _, he.2.2.2.2, rfl, rfl, rfl⟩

theorem itemAt_some {α : Type} {l : List α} {i : ℕ} {x : α} (h : l[i]? = some x) : itemAt l i = .ok x := by
  unfold itemAt
  rw [h]

/-- Entries at the same place. -/
theorem forall₂_entry {α β : Type} {R : α → β → Prop} {l : List α} {r : List β} (h : List.Forall₂ R l r) {i : ℕ} {x : α}
    {y : β} (hx : l[i]? = some x) (hy : r[i]? = some y) : R x y := by
  obtain ⟨h1, rfl⟩ := List.getElem?_eq_some_iff.1 hx
  obtain ⟨h2, rfl⟩ := List.getElem?_eq_some_iff.1 hy
  exact List.Forall₂.get h h1 h2

end Verif.Mesh
