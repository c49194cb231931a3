import Verif.Lemmas.Connections
import Verif.Lemmas.Grid
import Verif.Spec.GridConn
import Verif.Spec.MeshTough

/-!
# Lemmas on the connections of structured grids (C81)
-/

namespace Verif.Mesh
open Verif.Py Verif.Model Verif.Spec

/-- The faces of a cell, as grid points. -/
def faceTriples (v : ℕ × ℕ × ℕ) : List (List (ℕ × ℕ × ℕ)) :=
  let (i, j, k) := v
  [[(i, j, k), (i, j + 1, k), (i + 1, j + 1, k), (i + 1, j, k)],
    [(i, j, k + 1), (i + 1, j, k + 1), (i + 1, j + 1, k + 1), (i, j + 1, k + 1)],
    [(i, j, k), (i + 1, j, k), (i + 1, j, k + 1), (i, j, k + 1)],
    [(i + 1, j, k), (i + 1, j + 1, k), (i + 1, j + 1, k + 1), (i + 1, j, k + 1)],
    [(i + 1, j + 1, k), (i, j + 1, k), (i, j + 1, k + 1), (i + 1, j + 1, k + 1)],
    [(i, j, k), (i, j, k + 1), (i, j + 1, k + 1), (i, j + 1, k)]]

theorem faces_grid (L : List (ℕ × ℕ × ℕ)) (G : ℕ × ℕ × ℕ → ℕ) :
    faces [⟨.hexahedron, L.map fun v => (meshVertices3 v).map G⟩] =
      .ok (L.map fun v => (faceTriples v).map fun f => f.map G) := by
  unfold faces
  simp only [List.mapM_cons, List.mapM_nil]
  rw [List.mapM_map]
  have : (L.mapM fun v => do
      let t ← faceTable .hexahedron
      t.mapM (rowsAt ((meshVertices3 v).map G))) = .ok (L.map fun v => (faceTriples v).map fun f => f.map G) :=
    mapM_eq_map fun ⟨i, j, k⟩ _ => rfl
  simp only [Function.comp_def] at this ⊢
  rw [this]
  simp only [ok_bind]
  show Except.ok [_].flatten = _
  simp

/-- The points of the grid can be told apart by their numbers. -/
theorem index3_unique (order : Order) (n1 n2 n3 : ℕ) : ∃ D : ℕ → ℕ × ℕ × ℕ, ∀ t : ℕ × ℕ × ℕ,
    t.1 < n1 → t.2.1 < n2 → t.2.2 < n3 → D (index3 order n1 n2 n3 t) = t := by
  refine ⟨fun n => ((grid3 order (List.range n1) (List.range n2) (List.range n3))[n]?).getD (0, 0, 0), ?_⟩
  rintro ⟨i, j, k⟩ h1 h2 h3
  have := grid3_get order (xs := List.range n1) (ys := List.range n2) (zs := List.range n3)
    (List.getElem?_range h1) (List.getElem?_range h2) (List.getElem?_range h3)
  simp only [List.length_range] at this
  simp only [this, Option.getD_some]

theorem mem_faceTriples {v t : ℕ × ℕ × ℕ} {f : List (ℕ × ℕ × ℕ)} (hf : f ∈ faceTriples v) (ht : t ∈ f) :
    t.1 ≤ v.1 + 1 ∧ t.2.1 ≤ v.2.1 + 1 ∧ t.2.2 ≤ v.2.2 + 1 := by
  obtain ⟨i, j, k⟩ := v
  simp only [faceTriples, List.mem_cons, List.not_mem_nil, or_false] at hf
  rcases hf with rfl | rfl | rfl | rfl | rfl | rfl <;>
  · simp only [List.mem_cons, List.not_mem_nil, or_false] at ht
    rcases ht with rfl | rfl | rfl | rfl <;> simp

/-- Which faces two cells have in common. -/
def FacePair (v : ℕ × ℕ × ℕ) (a : ℕ) (w : ℕ × ℕ × ℕ) (b : ℕ) : Prop :=
  (a = 3 ∧ b = 5 ∧ Linked .x v w) ∨ (a = 5 ∧ b = 3 ∧ Linked .x w v) ∨
  (a = 4 ∧ b = 2 ∧ Linked .y v w) ∨ (a = 2 ∧ b = 4 ∧ Linked .y w v) ∨
  (a = 0 ∧ b = 1 ∧ Linked .z v w) ∨ (a = 1 ∧ b = 0 ∧ Linked .z w v)

theorem facePair_symm {v w : ℕ × ℕ × ℕ} {a b : ℕ} (h : FacePair v a w b) : FacePair w b v a := by
  unfold FacePair at h ⊢
  tauto

theorem perm4 {α : Type} (a b c d : α) : [a, b, c, d].Perm [a, d, c, b] :=
  List.Perm.cons _ (List.reverse_perm [d, c, b])

theorem perm4' {α : Type} (a b c d : α) : [a, b, c, d].Perm [b, a, d, c] :=
  (List.Perm.swap b a [c, d]).trans (List.Perm.cons _ (List.Perm.cons _ (List.Perm.swap d c [])))

/-- The faces of a pair consist of the same points. -/
theorem facePair_perm {v w : ℕ × ℕ × ℕ} {a b : ℕ} (h : FacePair v a w b) :
    ∃ f g, (faceTriples v)[a]? = some f ∧ (faceTriples w)[b]? = some g ∧ f.Perm g := by
  obtain ⟨i, j, k⟩ := v
  obtain ⟨i', j', k'⟩ := w
  rcases h with ⟨rfl, rfl, h⟩ | ⟨rfl, rfl, h⟩ | ⟨rfl, rfl, h⟩ | ⟨rfl, rfl, h⟩ | ⟨rfl, rfl, h⟩ | ⟨rfl, rfl, h⟩ <;>
  · simp only [Linked, Prod.mk.injEq] at h
    obtain ⟨rfl, rfl, rfl⟩ := h
    refine ⟨_, _, rfl, rfl, ?_⟩
    first | exact perm4 _ _ _ _ | exact perm4' _ _ _ _

/-- The sums of the coordinates of the points of a face. -/
theorem face_sums {i j k a : ℕ} {f : List (ℕ × ℕ × ℕ)} (hf : (faceTriples (i, j, k))[a]? = some f) :
    ∃ x y z, (f.map fun t => t.1).sum = x ∧ (f.map fun t => t.2.1).sum = y ∧ (f.map fun t => t.2.2).sum = z ∧
      (a = 0 ∧ x = 4 * i + 2 ∧ y = 4 * j + 2 ∧ z = 4 * k ∨ a = 1 ∧ x = 4 * i + 2 ∧ y = 4 * j + 2 ∧ z = 4 * k + 4 ∨
        a = 2 ∧ x = 4 * i + 2 ∧ y = 4 * j ∧ z = 4 * k + 2 ∨ a = 3 ∧ x = 4 * i + 4 ∧ y = 4 * j + 2 ∧ z = 4 * k + 2 ∨
        a = 4 ∧ x = 4 * i + 2 ∧ y = 4 * j + 4 ∧ z = 4 * k + 2 ∨ a = 5 ∧ x = 4 * i ∧ y = 4 * j + 2 ∧ z = 4 * k + 2) := by
  refine ⟨_, _, _, rfl, rfl, rfl, ?_⟩
  have ha := lt_of_get hf
  simp only [faceTriples, List.length_cons, List.length_nil, Nat.zero_add, Nat.reduceAdd] at ha
  interval_cases a <;> cases hf <;> simp only [List.map_cons, List.map_nil, List.sum_cons, List.sum_nil, true_and] <;>
    omega

/-- Faces of the same points are those of a pair, or one face. -/
theorem perm_facePair {v w : ℕ × ℕ × ℕ} {a b : ℕ} {f g : List (ℕ × ℕ × ℕ)} (hf : (faceTriples v)[a]? = some f)
    (hg : (faceTriples w)[b]? = some g) (h : f.Perm g) : FacePair v a w b ∨ (v = w ∧ a = b) := by
  obtain ⟨i, j, k⟩ := v
  obtain ⟨i', j', k'⟩ := w
  obtain ⟨x, y, z, h1, h2, h3, hc⟩ := face_sums hf
  obtain ⟨x', y', z', h1', h2', h3', hc'⟩ := face_sums hg
  have s1 := (h.map fun t : ℕ × ℕ × ℕ => t.1).sum_eq
  have s2 := (h.map fun t : ℕ × ℕ × ℕ => t.2.1).sum_eq
  have s3 := (h.map fun t : ℕ × ℕ × ℕ => t.2.2).sum_eq
  rw [h1, h1'] at s1
  rw [h2, h2'] at s2
  rw [h3, h3'] at s3
  clear h hf hg h1 h1' h2 h2' h3 h3'
  subst s1 s2 s3
  simp only [FacePair, Linked, Prod.mk.injEq]
  rcases hc with ⟨rfl, ha⟩ | ⟨rfl, ha⟩ | ⟨rfl, ha⟩ | ⟨rfl, ha⟩ | ⟨rfl, ha⟩ | ⟨rfl, ha⟩ <;>
  rcases hc' with ⟨rfl, hb⟩ | ⟨rfl, hb⟩ | ⟨rfl, hb⟩ | ⟨rfl, hb⟩ | ⟨rfl, hb⟩ | ⟨rfl, hb⟩ <;>
  first
  | (exfalso; omega)
  | exact Or.inr ⟨by omega, rfl⟩
  | exact Or.inl (Or.inl ⟨rfl, rfl, by omega⟩)
  | exact Or.inl (Or.inr (Or.inl ⟨rfl, rfl, by omega⟩))
  | exact Or.inl (Or.inr (Or.inr (Or.inl ⟨rfl, rfl, by omega⟩)))
  | exact Or.inl (Or.inr (Or.inr (Or.inr (Or.inl ⟨rfl, rfl, by omega⟩))))
  | exact Or.inl (Or.inr (Or.inr (Or.inr (Or.inr (Or.inl ⟨rfl, rfl, by omega⟩)))))
  | exact Or.inl (Or.inr (Or.inr (Or.inr (Or.inr (Or.inr ⟨rfl, rfl, by omega⟩)))))

/-- The faces of a grid that belong to two cells. -/
theorem shared_grid {L : List (ℕ × ℕ × ℕ)} (hL : L.Nodup) {order : Order} {nx ny nz : ℕ}
    (hb : ∀ v ∈ L, v.1 < nx ∧ v.2.1 < ny ∧ v.2.2 < nz) (p a q b : ℕ) :
    Shared (L.map fun v => (faceTriples v).map fun f => f.map (index3 order (nx + 1) (ny + 1) (nz + 1))) p a q b ↔
      ∃ v w, L[p]? = some v ∧ L[q]? = some w ∧ FacePair v a w b := by
  obtain ⟨D, hD⟩ := index3_unique order (nx + 1) (ny + 1) (nz + 1)
  generalize index3 order (nx + 1) (ny + 1) (nz + 1) = G at *
  have hinv : ∀ v ∈ L, ∀ f ∈ faceTriples v, (f.map G).map D = f := by
    intro v hv f hf
    rw [List.map_map]
    conv_rhs => rw [← List.map_id f]
    refine List.map_congr_left fun t ht => ?_
    obtain ⟨b1, b2, b3⟩ := hb v hv
    obtain ⟨c1, c2, c3⟩ := mem_faceTriples hf ht
    exact hD t (by omega) (by omega) (by omega)
  constructor
  · rintro ⟨hne, f, g, ⟨row, h1, h2⟩, ⟨row', h3, h4⟩, h5⟩
    rw [List.getElem?_map, Option.map_eq_some_iff] at h1 h3
    obtain ⟨v, hv, rfl⟩ := h1
    obtain ⟨w, hw, rfl⟩ := h3
    rw [List.getElem?_map, Option.map_eq_some_iff] at h2 h4
    obtain ⟨f, hf, rfl⟩ := h2
    obtain ⟨g, hg, rfl⟩ := h4
    have h6 := h5.map D
    rw [hinv v (List.mem_of_getElem? hv) f (List.mem_of_getElem? hf),
      hinv w (List.mem_of_getElem? hw) g (List.mem_of_getElem? hg)] at h6
    rcases perm_facePair hf hg h6 with h | ⟨rfl, rfl⟩
    · exact ⟨v, w, hv, hw, h⟩
    · exact absurd (by rw [(List.getElem?_inj (lt_of_get hv) hL).1 (hv.trans hw.symm)]) hne
  · rintro ⟨v, w, hv, hw, h⟩
    obtain ⟨f, g, hf, hg, hp⟩ := facePair_perm h
    refine ⟨?_, f.map G, g.map G, ⟨_, by rw [List.getElem?_map, hv]; rfl, by rw [List.getElem?_map, hf]; rfl⟩,
      ⟨_, by rw [List.getElem?_map, hw]; rfl, by rw [List.getElem?_map, hg]; rfl⟩, hp.map G⟩
    intro he
    cases he
    rcases h with ⟨h1, h2, -⟩ | ⟨h1, h2, -⟩ | ⟨h1, h2, -⟩ | ⟨h1, h2, -⟩ | ⟨h1, h2, -⟩ | ⟨h1, h2, -⟩ <;> omega

/-- The faces of a grid are proper. -/
theorem proper_grid {L : List (ℕ × ℕ × ℕ)} (hL : L.Nodup) {order : Order} {nx ny nz : ℕ}
    (hb : ∀ v ∈ L, v.1 < nx ∧ v.2.1 < ny ∧ v.2.2 < nz) :
    ProperFaces (L.map fun v => (faceTriples v).map fun f => f.map (index3 order (nx + 1) (ny + 1) (nz + 1))) := by
  constructor
  · intro p a q b r c h1 h2
    rw [shared_grid hL hb] at h1 h2
    obtain ⟨v, w, hv, hw, h1⟩ := h1
    obtain ⟨v', u, hv', hu, h2⟩ := h2
    rw [hv] at hv'
    cases hv'
    have key : w = u ∧ b = c := by
      obtain ⟨i, j, k⟩ := v
      obtain ⟨i', j', k'⟩ := w
      obtain ⟨i'', j'', k''⟩ := u
      simp only [FacePair, Linked, Prod.mk.injEq] at h1 h2 ⊢
      omega
    obtain ⟨rfl, rfl⟩ := key
    rw [(List.getElem?_inj (lt_of_get hw) hL).1 (hw.trans hu.symm)]
  · intro p a b q c d h1 h2
    rw [shared_grid hL hb] at h1 h2
    obtain ⟨v, w, hv, hw, h1⟩ := h1
    obtain ⟨v', w', hv', hw', h2⟩ := h2
    rw [hv] at hv'
    rw [hw] at hw'
    cases hv'
    cases hw'
    obtain ⟨i, j, k⟩ := v
    obtain ⟨i', j', k'⟩ := w
    simp only [FacePair, Linked, Prod.mk.injEq] at h1 h2
    omega

/-- The place of a cell in the list of cells. -/
theorem listing_get (layer : Bool) (nx ny nz i j k : ℕ) (hi : i < nx) (hj : j < ny) (hk : k < nz) :
    (listing layer nx ny nz)[index3 (if layer then .F else .C) nx ny nz (i, j, nz - 1 - k)]? = some (i, j, k) := by
  have hz : (List.range nz).reverse[nz - 1 - k]? = some k := by
    rw [List.getElem?_reverse (by simp; omega), List.length_range, List.getElem?_range (by omega)]
    congr 1
    omega
  have := grid3_get (if layer then .F else .C) (List.getElem?_range hi) (List.getElem?_range hj) hz
  simp only [List.length_range, List.length_reverse] at this
  cases layer
  · exact this
  · exact this

/-- The first of two linked cells comes first. -/
theorem linked_before {layer : Bool} {nx ny nz p q : ℕ} {v w : ℕ × ℕ × ℕ}
    (hn : (listing layer nx ny nz).Nodup)
    (hp : (listing layer nx ny nz)[p]? = some v) (hq : (listing layer nx ny nz)[q]? = some w) {a : GridAxis}
    (h : Linked a v w) : p < q := by
  obtain ⟨i, j, k⟩ := v
  obtain ⟨i', j', k'⟩ := w
  obtain ⟨a1, a2, a3⟩ := mem_listing.1 (List.mem_of_getElem? hp)
  obtain ⟨b1, b2, b3⟩ := mem_listing.1 (List.mem_of_getElem? hq)
  have e1 := listing_get layer nx ny nz i j k a1 a2 a3
  have e2 := listing_get layer nx ny nz i' j' k' b1 b2 b3
  have e1 := (List.getElem?_inj (lt_of_get hp) hn).1 (hp.trans e1.symm)
  have e2 := (List.getElem?_inj (lt_of_get hq) hn).1 (hq.trans e2.symm)
  rw [e1, e2]
  obtain ⟨d, hd⟩ : ∃ d, nz = k + 1 + d := ⟨nz - (k + 1), by omega⟩
  cases layer <;> cases a <;> simp only [Linked, Prod.mk.injEq] at h <;> obtain ⟨rfl, rfl, rfl⟩ := h <;>
    simp only [index3, Bool.false_eq_true, if_false, if_true]
  · nlinarith [Nat.zero_le (nz - 1)]
  · nlinarith [Nat.zero_le (nz - 1)]
  · omega
  · omega
  · nlinarith
  · have : nz - 1 - k' = (nz - 1 - (k' + 1)) + 1 := by omega
    rw [this]
    nlinarith

/-- The number of linked cells of a grid. -/
theorem linked_count {layer : Bool} {nx ny nz : ℕ} (hL : (listing layer nx ny nz).Nodup)
    (hT : ∀ a b c, (listing true a b c).Nodup ∧ (listing true a b c).length = a * b * c ∧
      ∀ i j k, (i, j, k) ∈ listing true a b c ↔ i < a ∧ j < b ∧ k < c)
    {pairs : List (ℕ × ℕ)} (hn : pairs.Nodup)
    (hp : ∀ p q, (p, q) ∈ pairs ↔ ∃ a v w, (listing layer nx ny nz)[p]? = some v ∧
      (listing layer nx ny nz)[q]? = some w ∧ Linked a v w) :
    pairs.length = (nx - 1) * ny * nz + nx * (ny - 1) * nz + nx * ny * (nz - 1) := by
  let X := (listing true (nx - 1) ny nz).map fun v => (v, ((v.1 + 1, v.2.1, v.2.2) : ℕ × ℕ × ℕ))
  let Y := (listing true nx (ny - 1) nz).map fun v => (v, ((v.1, v.2.1 + 1, v.2.2) : ℕ × ℕ × ℕ))
  let Z := (listing true nx ny (nz - 1)).map fun v => (((v.1, v.2.1, v.2.2 + 1) : ℕ × ℕ × ℕ), v)
  have hX : ∀ v w, (v, w) ∈ X ↔ (v ∈ listing layer nx ny nz ∧ w ∈ listing layer nx ny nz) ∧ Linked .x v w := by
    rintro ⟨i, j, k⟩ ⟨i', j', k'⟩
    simp only [X, List.mem_map, Prod.exists, (hT _ _ _).2.2, mem_listing, Linked, Prod.mk.injEq]
    constructor
    · rintro ⟨a, b, c, h, ⟨rfl, rfl, rfl⟩, rfl, rfl, rfl⟩
      omega
    · rintro ⟨h1, rfl, rfl, rfl⟩
      exact ⟨i, j', k', by omega, ⟨rfl, rfl, rfl⟩, rfl, rfl, rfl⟩
  have hY : ∀ v w, (v, w) ∈ Y ↔ (v ∈ listing layer nx ny nz ∧ w ∈ listing layer nx ny nz) ∧ Linked .y v w := by
    rintro ⟨i, j, k⟩ ⟨i', j', k'⟩
    simp only [Y, List.mem_map, Prod.exists, (hT _ _ _).2.2, mem_listing, Linked, Prod.mk.injEq]
    constructor
    · rintro ⟨a, b, c, h, ⟨rfl, rfl, rfl⟩, rfl, rfl, rfl⟩
      omega
    · rintro ⟨h1, rfl, rfl, rfl⟩
      exact ⟨i', j, k', by omega, ⟨rfl, rfl, rfl⟩, rfl, rfl, rfl⟩
  have hZ : ∀ v w, (v, w) ∈ Z ↔ (v ∈ listing layer nx ny nz ∧ w ∈ listing layer nx ny nz) ∧ Linked .z v w := by
    rintro ⟨i, j, k⟩ ⟨i', j', k'⟩
    simp only [Z, List.mem_map, Prod.exists, (hT _ _ _).2.2, mem_listing, Linked, Prod.mk.injEq]
    constructor
    · rintro ⟨a, b, c, h, ⟨rfl, rfl, rfl⟩, rfl, rfl, rfl⟩
      omega
    · rintro ⟨h1, rfl, rfl, rfl⟩
      exact ⟨i, j, k', by omega, ⟨rfl, rfl, rfl⟩, rfl, rfl, rfl⟩
  have dXY : ∀ v w, ¬ (Linked .x v w ∧ Linked .y v w) := by
    rintro ⟨i, j, k⟩ ⟨i', j', k'⟩
    simp only [Linked, Prod.mk.injEq]
    omega
  have dXZ : ∀ v w, ¬ (Linked .x v w ∧ Linked .z v w) := by
    rintro ⟨i, j, k⟩ ⟨i', j', k'⟩
    simp only [Linked, Prod.mk.injEq]
    omega
  have dYZ : ∀ v w, ¬ (Linked .y v w ∧ Linked .z v w) := by
    rintro ⟨i, j, k⟩ ⟨i', j', k'⟩
    simp only [Linked, Prod.mk.injEq]
    omega
  have hQ : (X ++ Y ++ Z).Nodup := by
    rw [List.nodup_append, List.nodup_append]
    refine ⟨⟨(hT _ _ _).1.map ?_, (hT _ _ _).1.map ?_, ?_⟩, (hT _ _ _).1.map ?_, ?_⟩
    · intro a b hab
      exact congrArg Prod.fst hab
    · intro a b hab
      exact congrArg Prod.fst hab
    · rintro ⟨v, w⟩ h1 _ h2 rfl
      exact dXY v w ⟨((hX v w).1 h1).2, ((hY v w).1 h2).2⟩
    · intro a b hab
      exact congrArg Prod.snd hab
    · rintro ⟨v, w⟩ h1 _ h2 rfl
      rcases List.mem_append.1 h1 with h1 | h1
      · exact dXZ v w ⟨((hX v w).1 h1).2, ((hZ v w).1 h2).2⟩
      · exact dYZ v w ⟨((hY v w).1 h1).2, ((hZ v w).1 h2).2⟩
  let at_ (p : ℕ) : ℕ × ℕ × ℕ := (listing layer nx ny nz).getD p (0, 0, 0)
  have hat : ∀ {p : ℕ} {v}, (listing layer nx ny nz)[p]? = some v → at_ p = v := by
    intro p v hv
    show (listing layer nx ny nz).getD p (0, 0, 0) = v
    rw [List.getD_eq_getElem?_getD, hv]
    rfl
  have hP : (pairs.map fun e => (at_ e.1, at_ e.2)).Nodup := by
    refine List.Nodup.map_on ?_ hn
    rintro ⟨p, q⟩ h1 ⟨p', q'⟩ h2 he
    obtain ⟨-, v, w, hv, hw, -⟩ := (hp p q).1 h1
    obtain ⟨-, v', w', hv', hw', -⟩ := (hp p' q').1 h2
    simp only [Prod.mk.injEq, hat hv, hat hw, hat hv', hat hw'] at he
    obtain ⟨rfl, rfl⟩ := he
    rw [(List.getElem?_inj (lt_of_get hv) hL).1 (hv.trans hv'.symm),
      (List.getElem?_inj (lt_of_get hw) hL).1 (hw.trans hw'.symm)]
  have hperm : (pairs.map fun e => (at_ e.1, at_ e.2)).Perm (X ++ Y ++ Z) := by
    rw [List.perm_ext_iff_of_nodup hP hQ]
    rintro ⟨v, w⟩
    rw [List.mem_append, List.mem_append, hX, hY, hZ, List.mem_map]
    constructor
    · rintro ⟨⟨p, q⟩, h1, he⟩
      obtain ⟨a, v', w', hv, hw, hl⟩ := (hp p q).1 h1
      simp only [Prod.mk.injEq, hat hv, hat hw] at he
      obtain ⟨rfl, rfl⟩ := he
      have hb := And.intro (List.mem_of_getElem? hv) (List.mem_of_getElem? hw)
      cases a
      · exact Or.inl (Or.inl ⟨hb, hl⟩)
      · exact Or.inl (Or.inr ⟨hb, hl⟩)
      · exact Or.inr ⟨hb, hl⟩
    · intro h
      obtain ⟨⟨h1, h2⟩, a, hl⟩ : (v ∈ listing layer nx ny nz ∧ w ∈ listing layer nx ny nz) ∧ ∃ a, Linked a v w := by
        rcases h with (⟨hb, hl⟩ | ⟨hb, hl⟩) | ⟨hb, hl⟩ <;> exact ⟨hb, _, hl⟩
      obtain ⟨p, hv⟩ := List.getElem?_of_mem h1
      obtain ⟨q, hw⟩ := List.getElem?_of_mem h2
      exact ⟨(p, q), (hp p q).2 ⟨a, v, w, hv, hw, hl⟩, by rw [hat hv, hat hw]⟩
  have := hperm.length_eq
  rw [List.length_map] at this
  rw [this]
  simp only [X, Y, Z, List.length_append, List.length_map, (hT _ _ _).2.1]

end Verif.Mesh
