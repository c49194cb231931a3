import Verif.Lemmas.Geometry
import Verif.Spec.Solid
import Mathlib.Tactic.LinearCombination
import Mathlib.Tactic.Positivity

/-!
# Lemmas about cells enclosed by their faces
-/

namespace Verif.Mesh
open Verif.Py Verif.Model Verif.Spec

/-! ### signed volumes -/

theorem sv_swap₁ (p q r o : P3 ℝ) : signedVolume q p r o = -signedVolume p q r o := by
  unfold signedVolume; ring

theorem sv_swap₂ (p q r o : P3 ℝ) : signedVolume p r q o = -signedVolume p q r o := by
  unfold signedVolume; ring

theorem sv_swap₃ (p q r o : P3 ℝ) : signedVolume p q o r = -signedVolume p q r o := by
  unfold signedVolume; ring

theorem sv_turn (a b c d : P3 ℝ) : signedVolume b a d c = signedVolume a b c d := by
  unfold signedVolume; ring

theorem triple_sv (p q r o : P3 ℝ) : tripleProduct (q.sub p) (r.sub p) (o.sub p) = signedVolume p q r o := by
  simp only [tripleProduct, cross, P3.sub, signedVolume]; ring

/-- A quadrangle cut along the other diagonal. -/
theorem sv_diagonal (p q r s o : P3 ℝ) : signedVolume p q r o + signedVolume p r s o =
    signedVolume q r s o + signedVolume p q s o + signedVolume p q r s := by
  unfold signedVolume; ring

/-! ### a cell with its own numbers -/

/-- A convex cell whose vertices have the numbers below `n`. -/
structure Convexly (Q : ℕ → P3 ℝ) (n : ℕ) (l : List (List ℕ)) : Prop where
  flat : ∀ f ∈ l, ∀ t ∈ faceCorners f, ∀ v ∈ f, sideOf Q t v = 0
  oneSide : ∀ f ∈ l, ∀ t ∈ faceCorners f, ∀ t' ∈ faceCorners f, ∀ v < n, v ∉ f → ∀ v' < n, v' ∉ f →
    0 < sideOf Q t v * sideOf Q t' v'

/-- The cell is behind one face. -/
def BehindFace (Q : ℕ → P3 ℝ) (n : ℕ) (f : List ℕ) : Prop :=
  ∀ t ∈ faceCorners f, ∀ v < n, v ∉ f → sideOf Q t v < 0

theorem behind_start {Q : ℕ → P3 ℝ} {n : ℕ} {l : List (List ℕ)} (hc : Convexly Q n l) {f : List ℕ} (hf : f ∈ l)
    {t : ℕ × ℕ × ℕ} (ht : t ∈ faceCorners f) {v : ℕ} (hv : v < n ∧ v ∉ f) (h : sideOf Q t v < 0) :
    BehindFace Q n f := by
  intro t' ht' v' hv' hf'
  have := hc.oneSide f hf t ht t' ht' v hv.1 hv.2 v' hv' hf'
  by_contra h'
  have := mul_nonpos_of_nonpos_of_nonneg h.le (not_lt.1 h')
  linarith

theorem behind_step {Q : ℕ → P3 ℝ} {n : ℕ} {l : List (List ℕ)} (hc : Convexly Q n l) {f g : List ℕ}
    (hb : BehindFace Q n f) (hg : g ∈ l) (a b c d : ℕ) (h1 : (a, b, c) ∈ faceCorners f) (h2 : (b, a, d) ∈ faceCorners g)
    (hd : d < n ∧ d ∉ f) (hcg : c < n ∧ c ∉ g) : BehindFace Q n g := by
  refine behind_start hc hg h2 hcg ?_
  have := hb _ h1 d hd.1 hd.2
  rw [sideOf] at this ⊢
  rw [sv_turn]
  exact this

/-- The first vertex and its neighbours, in the numbers of the cell. -/
def handNumbers : CellType → ℕ × ℕ × ℕ × ℕ
  | .tetra => (0, 1, 2, 3)
  | .pyramid => (0, 1, 3, 4)
  | .wedge => (0, 1, 2, 3)
  | .hexahedron => (0, 1, 3, 4)
  | _ => (0, 0, 0, 0)

/-- The number of vertices. -/
def solidVertices : CellType → ℕ
  | .tetra => 4
  | .pyramid => 5
  | .wedge => 6
  | .hexahedron => 8
  | _ => 0

theorem behind_all {Q : ℕ → P3 ℝ} {t : CellType} {l : List (List ℕ)} (hl : faceTable t = .ok l)
    (hc : Convexly Q (solidVertices t) l)
    (h : 0 < signedVolume (Q (handNumbers t).1) (Q (handNumbers t).2.1) (Q (handNumbers t).2.2.1)
      (Q (handNumbers t).2.2.2)) : ∀ f ∈ l, BehindFace Q (solidVertices t) f := by
  cases t <;> cases hl
  · -- tetrahedra
    have b3 : BehindFace Q 4 [0, 2, 1] := behind_start hc (by decide) (t := (0, 2, 1)) (by decide) (v := 3) (by decide) (by
      rw [sideOf, sv_swap₂]; exact neg_neg_of_pos h)
    have b0 := behind_step hc b3 (g := [1, 2, 3]) (by decide) 2 1 0 3 (by decide) (by decide) (by decide) (by decide)
    have b1 := behind_step hc b3 (g := [0, 3, 2]) (by decide) 0 2 1 3 (by decide) (by decide) (by decide) (by decide)
    have b2 := behind_step hc b3 (g := [0, 1, 3]) (by decide) 1 0 2 3 (by decide) (by decide) (by decide) (by decide)
    simp only [List.forall_mem_cons]
    exact ⟨b0, b1, b2, b3, by simp⟩
  · -- pyramids
    have b4 : BehindFace Q 5 [0, 3, 2, 1] := behind_start hc (by decide) (t := (1, 0, 3)) (by decide) (v := 4) (by decide)
      (by rw [sideOf, sv_swap₁]; exact neg_neg_of_pos h)
    have b0 := behind_step hc b4 (g := [0, 1, 4]) (by decide) 1 0 3 4 (by decide) (by decide) (by decide) (by decide)
    have b1 := behind_step hc b4 (g := [1, 2, 4]) (by decide) 2 1 0 4 (by decide) (by decide) (by decide) (by decide)
    have b2 := behind_step hc b4 (g := [2, 3, 4]) (by decide) 3 2 1 4 (by decide) (by decide) (by decide) (by decide)
    have b3 := behind_step hc b4 (g := [3, 0, 4]) (by decide) 0 3 2 4 (by decide) (by decide) (by decide) (by decide)
    simp only [List.forall_mem_cons]
    exact ⟨b0, b1, b2, b3, b4, by simp⟩
  · -- wedges
    have b0 : BehindFace Q 6 [0, 2, 1] := behind_start hc (by decide) (t := (0, 2, 1)) (by decide) (v := 3) (by decide) (by
      rw [sideOf, sv_swap₂]; exact neg_neg_of_pos h)
    have b2 := behind_step hc b0 (g := [0, 1, 4, 3]) (by decide) 1 0 2 4 (by decide) (by decide) (by decide) (by decide)
    have b3 := behind_step hc b0 (g := [1, 2, 5, 4]) (by decide) 2 1 0 5 (by decide) (by decide) (by decide) (by decide)
    have b4 := behind_step hc b0 (g := [0, 3, 5, 2]) (by decide) 0 2 1 3 (by decide) (by decide) (by decide) (by decide)
    have b1 := behind_step hc b2 (g := [3, 4, 5]) (by decide) 4 3 0 5 (by decide) (by decide) (by decide) (by decide)
    simp only [List.forall_mem_cons]
    exact ⟨b0, b1, b2, b3, b4, by simp⟩
  · -- hexahedra
    have b0 : BehindFace Q 8 [0, 3, 2, 1] := behind_start hc (by decide) (t := (1, 0, 3)) (by decide) (v := 4) (by decide)
      (by rw [sideOf, sv_swap₁]; exact neg_neg_of_pos h)
    have b2 := behind_step hc b0 (g := [0, 1, 5, 4]) (by decide) 1 0 3 5 (by decide) (by decide) (by decide) (by decide)
    have b3 := behind_step hc b0 (g := [1, 2, 6, 5]) (by decide) 2 1 0 6 (by decide) (by decide) (by decide) (by decide)
    have b4 := behind_step hc b0 (g := [2, 3, 7, 6]) (by decide) 3 2 1 7 (by decide) (by decide) (by decide) (by decide)
    have b5 := behind_step hc b0 (g := [0, 4, 7, 3]) (by decide) 0 3 2 4 (by decide) (by decide) (by decide) (by decide)
    have b1 := behind_step hc b2 (g := [4, 5, 6, 7]) (by decide) 5 4 0 6 (by decide) (by decide) (by decide) (by decide)
    simp only [List.forall_mem_cons]
    exact ⟨b0, b1, b2, b3, b4, b5, by simp⟩

/-- The inner tetrahedron of a hexahedron. -/
theorem sv_inner (p1 p2 p3 p4 p5 p6 o : P3 ℝ) (h0 : signedVolume p1 p2 p5 p6 = 0) :
    signedVolume p1 p3 p4 p6 * signedVolume p1 p2 p5 o =
      signedVolume p1 p3 p4 p2 * signedVolume p1 p6 p5 o + signedVolume p1 p3 p4 p5 * signedVolume p1 p2 p6 o := by
  have key : signedVolume p1 p3 p4 p6 * signedVolume p1 p2 p5 o =
      signedVolume p1 p3 p4 p2 * signedVolume p1 p6 p5 o + signedVolume p1 p3 p4 p5 * signedVolume p1 p2 p6 o +
        signedVolume p1 p3 p4 o * signedVolume p1 p2 p5 p6 := by
    unfold signedVolume
    generalize p2.x - p1.x = a1
    generalize p2.y - p1.y = a2
    generalize p2.z - p1.z = a3
    generalize p5.x - p1.x = b1
    generalize p5.y - p1.y = b2
    generalize p5.z - p1.z = b3
    generalize p6.x - p1.x = c1
    generalize p6.y - p1.y = c2
    generalize p6.z - p1.z = c3
    generalize o.x - p1.x = w1
    generalize o.y - p1.y = w2
    generalize o.z - p1.z = w3
    generalize p3.x - p1.x = d1
    generalize p3.y - p1.y = d2
    generalize p3.z - p1.z = d3
    generalize p4.x - p1.x = e1
    generalize p4.y - p1.y = e2
    generalize p4.z - p1.z = e3
    ring
  rw [key, h0, mul_zero, add_zero]

/-- Six times the volume of a convex cell, by its tetrahedra and by its faces. -/
theorem tetras_fan {Q : ℕ → P3 ℝ} {t : CellType} {l ts : List (List ℕ)} (hl : faceTable t = .ok l)
    (hts : tetras t = .ok ts) (hc : Convexly Q (solidVertices t) l) (hb : ∀ f ∈ l, BehindFace Q (solidVertices t) f)
    (o : P3 ℝ) :
    (ts.map fun f => |signedVolume (Q (f.getD 0 0)) (Q (f.getD 1 0)) (Q (f.getD 2 0)) (Q (f.getD 3 0))|).sum =
      ((l.flatMap fanOf).map fun e => -signedVolume (Q e.1) (Q e.2.1) (Q e.2.2) o).sum := by
  cases t <;> cases hl <;> cases hts
  · have h : 0 < signedVolume (Q 0) (Q 1) (Q 2) (Q 3) := by
      have := hb [0, 2, 1] (by decide) (0, 2, 1) (by decide) 3 (by decide) (by decide)
      rw [sideOf, sv_swap₂] at this
      exact neg_neg_iff_pos.1 this
    simp only [List.map_cons, List.map_nil, List.sum_cons, List.sum_nil, List.getD_cons_zero, List.getD_cons_succ,
      List.flatMap_cons, List.flatMap_nil, fanOf, List.tail_cons, List.zip_cons_cons, List.zip_nil_right,
      List.append_nil, List.cons_append, List.nil_append, abs_of_pos h]
    unfold signedVolume
    ring
  · have h1 : 0 < signedVolume (Q 0) (Q 1) (Q 3) (Q 4) := by
      have := hb [0, 3, 2, 1] (by decide) (1, 0, 3) (by decide) 4 (by decide) (by decide)
      rw [sideOf, sv_swap₁] at this
      exact neg_neg_iff_pos.1 this
    have h2 : 0 < signedVolume (Q 1) (Q 2) (Q 3) (Q 4) := by
      have := hb [0, 3, 2, 1] (by decide) (3, 2, 1) (by decide) 4 (by decide) (by decide)
      have e : sideOf Q (3, 2, 1) 4 = -signedVolume (Q 1) (Q 2) (Q 3) (Q 4) := by
        simp only [sideOf]; unfold signedVolume; ring
      rw [e] at this
      exact neg_neg_iff_pos.1 this
    have f0 := hc.flat [0, 3, 2, 1] (by decide) (0, 3, 2) (by decide) 1 (by decide)
    simp only [sideOf] at f0
    simp only [List.map_cons, List.map_nil, List.sum_cons, List.sum_nil, List.getD_cons_zero, List.getD_cons_succ,
      List.flatMap_cons, List.flatMap_nil, fanOf, List.tail_cons, List.zip_cons_cons, List.zip_nil_right,
      List.append_nil, List.cons_append, List.nil_append, abs_of_pos h1, abs_of_pos h2]
    unfold signedVolume at *
    linear_combination f0
  · have h1 : 0 < signedVolume (Q 0) (Q 1) (Q 2) (Q 5) := by
      have := hb [0, 2, 1] (by decide) (0, 2, 1) (by decide) 5 (by decide) (by decide)
      rw [sideOf, sv_swap₂] at this
      exact neg_neg_iff_pos.1 this
    have h2 : signedVolume (Q 0) (Q 1) (Q 4) (Q 5) < 0 :=
      hb [0, 1, 4, 3] (by decide) (0, 1, 4) (by decide) 5 (by decide) (by decide)
    have h3 : 0 < signedVolume (Q 0) (Q 3) (Q 4) (Q 5) := by
      have := hb [3, 4, 5] (by decide) (3, 4, 5) (by decide) 0 (by decide) (by decide)
      have e : sideOf Q (3, 4, 5) 0 = -signedVolume (Q 0) (Q 3) (Q 4) (Q 5) := by
        simp only [sideOf]; unfold signedVolume; ring
      rw [e] at this
      exact neg_neg_iff_pos.1 this
    simp only [List.map_cons, List.map_nil, List.sum_cons, List.sum_nil, List.getD_cons_zero, List.getD_cons_succ,
      List.flatMap_cons, List.flatMap_nil, fanOf, List.tail_cons, List.zip_cons_cons, List.zip_nil_right,
      List.append_nil, List.cons_append, List.nil_append, abs_of_pos h1, abs_of_neg h2, abs_of_pos h3]
    unfold signedVolume at *
    ring
  · have h1 : 0 < signedVolume (Q 0) (Q 1) (Q 3) (Q 4) := by
      have := hb [0, 3, 2, 1] (by decide) (1, 0, 3) (by decide) 4 (by decide) (by decide)
      rw [sideOf, sv_swap₁] at this
      exact neg_neg_iff_pos.1 this
    have h2 : 0 < signedVolume (Q 1) (Q 4) (Q 5) (Q 6) := by
      have := hb [0, 1, 5, 4] (by decide) (1, 5, 4) (by decide) 6 (by decide) (by decide)
      rw [sideOf, sv_swap₂] at this
      exact neg_neg_iff_pos.1 this
    have h3 : 0 < signedVolume (Q 1) (Q 2) (Q 3) (Q 6) := by
      have := hb [0, 3, 2, 1] (by decide) (3, 2, 1) (by decide) 6 (by decide) (by decide)
      have e : sideOf Q (3, 2, 1) 6 = -signedVolume (Q 1) (Q 2) (Q 3) (Q 6) := by
        simp only [sideOf]; unfold signedVolume; ring
      rw [e] at this
      exact neg_neg_iff_pos.1 this
    have h4 : 0 < signedVolume (Q 3) (Q 4) (Q 6) (Q 7) := by
      have := hb [0, 4, 7, 3] (by decide) (4, 7, 3) (by decide) 6 (by decide) (by decide)
      have e : sideOf Q (4, 7, 3) 6 = -signedVolume (Q 3) (Q 4) (Q 6) (Q 7) := by
        simp only [sideOf]; unfold signedVolume; ring
      rw [e] at this
      exact neg_neg_iff_pos.1 this
    have g1 : signedVolume (Q 1) (Q 2) (Q 5) (Q 0) < 0 := by
      have := hb [1, 2, 6, 5] (by decide) (5, 1, 2) (by decide) 0 (by decide) (by decide)
      have e : sideOf Q (5, 1, 2) 0 = signedVolume (Q 1) (Q 2) (Q 5) (Q 0) := by
        simp only [sideOf]; unfold signedVolume; ring
      rwa [e] at this
    have g2 : signedVolume (Q 1) (Q 6) (Q 5) (Q 0) < 0 := by
      have := hb [1, 2, 6, 5] (by decide) (6, 5, 1) (by decide) 0 (by decide) (by decide)
      have e : sideOf Q (6, 5, 1) 0 = signedVolume (Q 1) (Q 6) (Q 5) (Q 0) := by
        simp only [sideOf]; unfold signedVolume; ring
      rwa [e] at this
    have g3 : signedVolume (Q 1) (Q 2) (Q 6) (Q 0) < 0 :=
      hb [1, 2, 6, 5] (by decide) (1, 2, 6) (by decide) 0 (by decide) (by decide)
    have g4 : 0 < signedVolume (Q 1) (Q 3) (Q 4) (Q 2) := by
      have := hb [0, 3, 2, 1] (by decide) (3, 2, 1) (by decide) 4 (by decide) (by decide)
      have e : sideOf Q (3, 2, 1) 4 = -signedVolume (Q 1) (Q 3) (Q 4) (Q 2) := by
        simp only [sideOf]; unfold signedVolume; ring
      rw [e] at this
      exact neg_neg_iff_pos.1 this
    have g5 : 0 < signedVolume (Q 1) (Q 3) (Q 4) (Q 5) := by
      have := hb [0, 1, 5, 4] (by decide) (1, 5, 4) (by decide) 3 (by decide) (by decide)
      have e : sideOf Q (1, 5, 4) 3 = -signedVolume (Q 1) (Q 3) (Q 4) (Q 5) := by
        simp only [sideOf]; unfold signedVolume; ring
      rw [e] at this
      exact neg_neg_iff_pos.1 this
    have f0 := hc.flat [0, 3, 2, 1] (by decide) (0, 3, 2) (by decide) 1 (by decide)
    have f1 := hc.flat [4, 5, 6, 7] (by decide) (4, 5, 6) (by decide) 7 (by decide)
    have f2 := hc.flat [0, 1, 5, 4] (by decide) (0, 1, 5) (by decide) 4 (by decide)
    have f3 := hc.flat [1, 2, 6, 5] (by decide) (1, 2, 6) (by decide) 5 (by decide)
    have f4 := hc.flat [2, 3, 7, 6] (by decide) (2, 3, 7) (by decide) 6 (by decide)
    have f5 := hc.flat [0, 4, 7, 3] (by decide) (0, 4, 7) (by decide) 3 (by decide)
    simp only [sideOf] at f0 f1 f2 f3 f4 f5
    have h5 : 0 < signedVolume (Q 1) (Q 3) (Q 4) (Q 6) := by
      have hi := sv_inner (Q 1) (Q 2) (Q 3) (Q 4) (Q 5) (Q 6) (Q 0) (by rw [sv_swap₃, f3, neg_zero])
      by_contra hn
      have i1 := mul_nonneg_of_nonpos_of_nonpos (not_lt.1 hn) g1.le
      have i2 := mul_neg_of_pos_of_neg g4 g2
      have i3 := mul_neg_of_pos_of_neg g5 g3
      linarith
    simp only [List.map_cons, List.map_nil, List.sum_cons, List.sum_nil, List.getD_cons_zero, List.getD_cons_succ,
      List.flatMap_cons, List.flatMap_nil, fanOf, List.tail_cons, List.zip_cons_cons, List.zip_nil_right,
      List.append_nil, List.cons_append, List.nil_append, abs_of_pos h1, abs_of_pos h2, abs_of_pos h3, abs_of_pos h4,
      abs_of_pos h5]
    unfold signedVolume at *
    linear_combination f0 + f2 + f4 + f5

/-! ### a cell of a mesh -/

theorem faceCorners_map (g : ℕ → ℕ) (f : List ℕ) :
    faceCorners (f.map g) = (faceCorners f).map fun t => (g t.1, g t.2.1, g t.2.2) := by
  have : f.map g ++ (f.map g).take 2 = (f ++ f.take 2).map g := by
    rw [List.map_append, List.map_take]
  rw [faceCorners, faceCorners, this, ← List.map_tail, ← List.map_tail, List.zip_map, List.zip_map]
  rfl

theorem fanOf_map (g : ℕ → ℕ) (f : List ℕ) : fanOf (f.map g) = (fanOf f).map fun t => (g t.1, g t.2.1, g t.2.2) := by
  cases f with
  | nil => rfl
  | cons a r =>
    simp only [List.map_cons, fanOf]
    rw [← List.map_tail, List.zip_map, List.map_map, List.map_map]
    rfl

/-- Vertex `i` of a cell. -/
def vertexAt (c : List ℕ) (i : ℕ) : ℕ := c.getD i 0

theorem vertexAt_eq {c : List ℕ} {i : ℕ} (h : i < c.length) : vertexAt c i = c[i] := by
  rw [vertexAt, List.getD_eq_getElem?_getD, List.getElem?_eq_getElem h, Option.getD_some]

theorem vertexAt_some {c : List ℕ} {i v : ℕ} (h : c[i]? = some v) : vertexAt c i = v := by
  rw [vertexAt, List.getD_eq_getElem?_getD, h, Option.getD_some]

theorem row_eq {c : List ℕ} {l row : List (List ℕ)}
    (h : List.Forall₂ (fun idx f => List.Forall₂ (fun i v => c[i]? = some v) idx f) l row) :
    row = l.map fun f => f.map (vertexAt c) := by
  induction h with
  | nil => rfl
  | cons hf _ ih =>
    rw [List.map_cons, ih]
    congr 1
    clear ih
    induction hf with
    | nil => rfl
    | cons hv _ ih =>
      rw [List.map_cons, ← ih, vertexAt, List.getD_eq_getElem?_getD, hv, Option.getD_some]

theorem faceTable_vertices {t : CellType} {l : List (List ℕ)} (hl : faceTable t = .ok l) :
    (∀ f ∈ l, ∀ i ∈ f, i < solidVertices t) ∧ (∀ i < solidVertices t, ∃ f ∈ l, i ∈ f) ∧
      ∀ f ∈ l, faceCorners f ≠ [] ∧ ∃ i < solidVertices t, i ∉ f := by
  cases t <;> cases hl <;> decide

theorem row_length {t : CellType} {c : List ℕ} {l row : List (List ℕ)} (hl : faceTable t = .ok l)
    (h : List.Forall₂ (fun idx f => List.Forall₂ (fun i v => c[i]? = some v) idx f) l row) :
    solidVertices t ≤ c.length := by
  by_contra hn
  obtain ⟨f, hf, hi⟩ := (faceTable_vertices hl).2.1 c.length (by omega)
  obtain ⟨f', _, h2⟩ := forall₂_mem_left h hf
  obtain ⟨v, _, hv⟩ := forall₂_mem_left h2 hi
  simp at hv

theorem convexly_of {P : ℕ → P3 ℝ} {t : CellType} {c : List ℕ} {l row : List (List ℕ)} (hl : faceTable t = .ok l)
    (h : List.Forall₂ (fun idx f => List.Forall₂ (fun i v => c[i]? = some v) idx f) l row) (hc : ConvexCell P c row) :
    Convexly (fun i => P (vertexAt c i)) (solidVertices t) l := by
  have hlen := row_length hl h
  have hr := row_eq h
  have hmem : ∀ v < solidVertices t, vertexAt c v ∈ c := by
    intro v hv
    rw [vertexAt_eq (by omega)]
    exact List.getElem_mem _
  have hnot : ∀ f ∈ l, ∀ v < solidVertices t, v ∉ f → vertexAt c v ∉ f.map (vertexAt c) := by
    intro f hf v hv hvf hm
    obtain ⟨w, hw, e⟩ := List.mem_map.1 hm
    have hw' := (faceTable_vertices hl).1 f hf w hw
    rw [vertexAt_eq (by omega), vertexAt_eq (by omega)] at e
    have := (List.Nodup.getElem_inj_iff hc.distinct).1 e
    exact hvf (this ▸ hw)
  constructor
  · intro f hf t' ht v hv
    exact hc.flat (f.map (vertexAt c)) (by rw [hr]; exact List.mem_map_of_mem hf)
      (vertexAt c t'.1, vertexAt c t'.2.1, vertexAt c t'.2.2)
      (by rw [faceCorners_map]; exact List.mem_map.2 ⟨t', ht, rfl⟩) _ (List.mem_map_of_mem hv)
  · intro f hf t₁ h₁ t₂ h₂ v hv hvf v' hv' hvf'
    exact hc.oneSide (f.map (vertexAt c)) (by rw [hr]; exact List.mem_map_of_mem hf)
      (vertexAt c t₁.1, vertexAt c t₁.2.1, vertexAt c t₁.2.2)
      (by rw [faceCorners_map]; exact List.mem_map.2 ⟨t₁, h₁, rfl⟩)
      (vertexAt c t₂.1, vertexAt c t₂.2.1, vertexAt c t₂.2.2)
      (by rw [faceCorners_map]; exact List.mem_map.2 ⟨t₂, h₂, rfl⟩)
      _ (hmem v hv) (hnot f hf v hv hvf) _ (hmem v' hv') (hnot f hf v' hv' hvf')

theorem handedness_eq {P : ℕ → P3 ℝ} {t : CellType} {c : List ℕ} {l : List (List ℕ)} (hl : faceTable t = .ok l)
    (h : solidVertices t ≤ c.length) :
    handedness P (t, c) = signedVolume (P (vertexAt c (handNumbers t).1)) (P (vertexAt c (handNumbers t).2.1))
      (P (vertexAt c (handNumbers t).2.2.1)) (P (vertexAt c (handNumbers t).2.2.2)) := by
  cases t <;> cases hl <;>
    rcases c with _ | ⟨a, _ | ⟨b, _ | ⟨d, _ | ⟨e, _ | ⟨f, c⟩⟩⟩⟩⟩ <;> first
    | rfl
    | (simp only [solidVertices, List.length_cons, List.length_nil] at h; omega)

/-- The mirror image of a point. -/
def flipped (p : P3 ℝ) : P3 ℝ := ⟨p.x, p.y, -p.z⟩

theorem sv_flipped (p q r o : P3 ℝ) :
    signedVolume (flipped p) (flipped q) (flipped r) (flipped o) = -signedVolume p q r o := by
  simp only [signedVolume, flipped]; ring

theorem convexCell_flipped {P : ℕ → P3 ℝ} {c : List ℕ} {row : List (List ℕ)} (h : ConvexCell P c row) :
    ConvexCell (fun v => flipped (P v)) c row := by
  refine ⟨h.distinct, ?_, ?_⟩
  · intro f hf t ht v hv
    rw [sideOf, sv_flipped]
    exact neg_eq_zero.2 (h.flat f hf t ht v hv)
  · intro f hf t ht t' ht' v hv hvf v' hv' hvf'
    rw [sideOf, sideOf, sv_flipped, sv_flipped, neg_mul_neg]
    exact h.oneSide f hf t ht t' ht' v hv hvf v' hv' hvf'

theorem behind_right {P : ℕ → P3 ℝ} {t : CellType} {c : List ℕ} {l row : List (List ℕ)} (hl : faceTable t = .ok l)
    (h : List.Forall₂ (fun idx f => List.Forall₂ (fun i v => c[i]? = some v) idx f) l row) (hc : ConvexCell P c row)
    (hp : 0 < handedness P (t, c)) :
    (∀ f ∈ l, BehindFace (fun i => P (vertexAt c i)) (solidVertices t) f) ∧ BehindFaces P c row := by
  have hcv := convexly_of hl h hc
  have hlen := row_length hl h
  rw [handedness_eq hl hlen] at hp
  have hb := behind_all hl hcv hp
  refine ⟨hb, ?_⟩
  intro f' hf' t' ht' v hv hvf
  have hr := row_eq h
  obtain ⟨f, hf, rfl⟩ := List.mem_map.1 (hr ▸ hf')
  obtain ⟨hne, i, hi, hif⟩ := (faceTable_vertices hl).2.2 f hf
  obtain ⟨t₀, ts, ht₀⟩ := List.exists_cons_of_ne_nil hne
  have hm₀ : t₀ ∈ faceCorners f := by rw [ht₀]; exact List.mem_cons_self
  have hneg := hb f hf t₀ hm₀ i hi hif
  have hmem : vertexAt c i ∈ c := by
    rw [vertexAt_eq (by omega)]
    exact List.getElem_mem _
  have hnot : vertexAt c i ∉ f.map (vertexAt c) := by
    intro hm
    obtain ⟨w, hw, e⟩ := List.mem_map.1 hm
    have hw' := (faceTable_vertices hl).1 f hf w hw
    rw [vertexAt_eq (by omega), vertexAt_eq (by omega)] at e
    exact hif ((List.Nodup.getElem_inj_iff hc.distinct).1 e ▸ hw)
  have := hc.oneSide _ hf' (vertexAt c t₀.1, vertexAt c t₀.2.1, vertexAt c t₀.2.2)
    (by rw [faceCorners_map]; exact List.mem_map.2 ⟨t₀, hm₀, rfl⟩) t' ht' _ hmem hnot v hv hvf
  have hneg' : sideOf P (vertexAt c t₀.1, vertexAt c t₀.2.1, vertexAt c t₀.2.2) (vertexAt c i) < 0 := hneg
  by_contra h'
  have := mul_nonpos_of_nonpos_of_nonneg hneg'.le (not_lt.1 h')
  linarith

theorem handedness_ne {P : ℕ → P3 ℝ} {t : CellType} {c : List ℕ} {l row : List (List ℕ)} (hl : faceTable t = .ok l)
    (h : List.Forall₂ (fun idx f => List.Forall₂ (fun i v => c[i]? = some v) idx f) l row) (hc : ConvexCell P c row) :
    handedness P (t, c) ≠ 0 := by
  have hcv := convexly_of hl h hc
  rw [handedness_eq hl (row_length hl h)]
  intro h0
  cases t <;> cases hl
  · have := hcv.oneSide [0, 2, 1] (by decide) (0, 2, 1) (by decide) (0, 2, 1) (by decide) 3 (by decide) (by decide) 3
      (by decide) (by decide)
    rw [sideOf, sv_swap₂] at this
    simp only [handNumbers] at h0
    rw [h0] at this
    simp at this
  · have := hcv.oneSide [0, 3, 2, 1] (by decide) (1, 0, 3) (by decide) (1, 0, 3) (by decide) 4 (by decide) (by decide) 4
      (by decide) (by decide)
    rw [sideOf, sv_swap₁] at this
    simp only [handNumbers] at h0
    rw [h0] at this
    simp at this
  · have := hcv.oneSide [0, 2, 1] (by decide) (0, 2, 1) (by decide) (0, 2, 1) (by decide) 3 (by decide) (by decide) 3
      (by decide) (by decide)
    rw [sideOf, sv_swap₂] at this
    simp only [handNumbers] at h0
    rw [h0] at this
    simp at this
  · have := hcv.oneSide [0, 3, 2, 1] (by decide) (1, 0, 3) (by decide) (1, 0, 3) (by decide) 4 (by decide) (by decide) 4
      (by decide) (by decide)
    rw [sideOf, sv_swap₁] at this
    simp only [handNumbers] at h0
    rw [h0] at this
    simp at this

theorem handedness_flipped (P : ℕ → P3 ℝ) (e : CellType × List ℕ) :
    handedness (fun v => flipped (P v)) e = -handedness P e := by
  unfold handedness
  split <;> first
    | exact sv_flipped _ _ _ _
    | simp

theorem convex_sides {P : ℕ → P3 ℝ} {t : CellType} {c : List ℕ} {l row : List (List ℕ)} (hl : faceTable t = .ok l)
    (h : List.Forall₂ (fun idx f => List.Forall₂ (fun i v => c[i]? = some v) idx f) l row) (hc : ConvexCell P c row) :
    (0 < handedness P (t, c) ∧ BehindFaces P c row) ∨ (handedness P (t, c) < 0 ∧ BeforeFaces P c row) := by
  rcases lt_or_gt_of_ne (handedness_ne hl h hc) with hn | hp
  · right
    refine ⟨hn, ?_⟩
    have := (behind_right hl h (convexCell_flipped hc) (by rw [handedness_flipped]; exact neg_pos.2 hn)).2
    intro f hf t' ht v hv hvf
    have h' := this f hf t' ht v hv hvf
    rw [sideOf, sv_flipped] at h'
    exact neg_neg_iff_pos.1 h'
  · exact .inl ⟨hp, (behind_right hl h hc hp).2⟩

/-! ### volumes -/

theorem enclosed_row {P : ℕ → P3 ℝ} {c : List ℕ} (l : List (List ℕ)) (o : P3 ℝ) :
    enclosedVolume P (l.map fun f => f.map (vertexAt c)) o =
      ((l.flatMap fanOf).map fun e => -signedVolume (P (vertexAt c e.1)) (P (vertexAt c e.2.1)) (P (vertexAt c e.2.2))
        o).sum / 6 := by
  rw [enclosedVolume, List.flatMap_map]
  simp only [fanOf_map]
  congr 2
  rw [List.map_flatMap, List.map_flatMap]
  simp only [List.map_map]
  rfl

theorem pointOf_row {pts : List (P3 ℝ)} {v : ℕ} {p : P3 ℝ} (h : pts[v]? = some p) : pointOf pts v = p := by
  rw [pointOf, List.getD_eq_getElem?_getD, h, Option.getD_some]

theorem tetras_four {t : CellType} {ts : List (List ℕ)} (h : tetras t = .ok ts) : ∀ f ∈ ts, f.length = 4 := by
  cases t <;> cases h <;> decide

theorem cellVolume_sv {pts : List (P3 ℝ)} {ts : List (List ℕ)} {c : List ℕ} {V : ℝ} (h4 : ∀ f ∈ ts, f.length = 4)
    (h : cellVolume pts ts c = .ok V) :
    V = (ts.map fun f => |signedVolume (pointOf pts (vertexAt c (f.getD 0 0))) (pointOf pts (vertexAt c (f.getD 1 0)))
      (pointOf pts (vertexAt c (f.getD 2 0))) (pointOf pts (vertexAt c (f.getD 3 0)))|).sum / 6 := by
  unfold cellVolume at h
  obtain ⟨vs, h1, h2⟩ := bind_eq_ok.1 h
  cases h2
  congr 2
  have hf := mapM_eq_ok h1
  have : List.Forall₂ (fun f v => v = |signedVolume (pointOf pts (vertexAt c (f.getD 0 0)))
      (pointOf pts (vertexAt c (f.getD 1 0))) (pointOf pts (vertexAt c (f.getD 2 0)))
      (pointOf pts (vertexAt c (f.getD 3 0)))|) ts vs := by
    refine forall₂_mem hf fun f v hfm hv => ?_
    obtain ⟨tt, e1, hv⟩ := bind_eq_ok.1 hv
    obtain ⟨ps, e2, hv⟩ := bind_eq_ok.1 hv
    obtain ⟨a, b, d, e, rfl⟩ : ∃ a b d e, f = [a, b, d, e] := by
      have := h4 f hfm
      match f, this with
      | [a, b, d, e], _ => exact ⟨a, b, d, e, rfl⟩
    have r1 := rowsAt_ok e1
    have r2 := rowsAt_ok e2
    match tt, r1 with
    | [_, _, _, _], .cons i1 (.cons i2 (.cons i3 (.cons i4 .nil))) =>
      match ps, r2 with
      | [_, _, _, _], .cons j1 (.cons j2 (.cons j3 (.cons j4 .nil))) =>
        simp only [Except.ok.injEq] at hv
        rw [← hv, triple_sv]
        simp only [List.getD_cons_zero, List.getD_cons_succ, vertexAt_some i1, vertexAt_some i2, vertexAt_some i3,
          vertexAt_some i4, pointOf_row j1, pointOf_row j2, pointOf_row j3, pointOf_row j4]
  clear h1 hf h h4
  induction this with
  | nil => rfl
  | cons hx _ ih => rw [List.map_cons, ih, hx]

theorem flip_fan (P : ℕ → P3 ℝ) (fs : List (List ℕ)) (o : P3 ℝ) :
    enclosedVolume (fun v => flipped (P v)) fs (flipped o) = -enclosedVolume P fs o := by
  rw [enclosedVolume, enclosedVolume, ← neg_div]
  congr 1
  simp only [sv_flipped]
  induction fs.flatMap fanOf with
  | nil => simp
  | cons e l ih =>
    rw [List.map_cons, List.map_cons, List.sum_cons, List.sum_cons, ih]
    ring

/-- The volume of a convex cell is that enclosed by its faces. -/
theorem convex_volume {pts : List (P3 ℝ)} {t : CellType} {c : List ℕ} {l row ts : List (List ℕ)}
    (hl : faceTable t = .ok l)
    (h : List.Forall₂ (fun idx f => List.Forall₂ (fun i v => c[i]? = some v) idx f) l row)
    (hc : ConvexCell (pointOf pts) c row) (hts : tetras t = .ok ts) {V : ℝ} (hV : cellVolume pts ts c = .ok V)
    (o : P3 ℝ) :
    (0 < handedness (pointOf pts) (t, c) → V = enclosedVolume (pointOf pts) row o) ∧
      (handedness (pointOf pts) (t, c) < 0 → V = -enclosedVolume (pointOf pts) row o) := by
  have hs := cellVolume_sv (tetras_four hts) hV
  refine ⟨fun hp => ?_, fun hn => ?_⟩
  · rw [row_eq h, enclosed_row, hs, tetras_fan hl hts (convexly_of hl h hc) (behind_right hl h hc hp).1 o]
  · have hc' := convexCell_flipped hc
    have := tetras_fan hl hts (convexly_of hl h hc')
      (behind_right hl h hc' (by rw [handedness_flipped]; exact neg_pos.2 hn)).1 (flipped o)
    rw [← flip_fan, row_eq h, enclosed_row, ← this, hs]
    simp only [sv_flipped, abs_neg]

/-! ### areas and normal vectors -/

theorem sv_dot (p q r o : P3 ℝ) : signedVolume p q r o = dot (cross (q.sub p) (r.sub p)) (o.sub p) := by
  simp only [signedVolume, dot, cross, P3.sub]; ring

theorem norm3_pos {v w : P3 ℝ} (h : dot v w ≠ 0) : 0 < norm3 v := by
  apply Real.sqrt_pos.2
  have := dot_self_nonneg v
  rcases this.lt_or_eq with h1 | h1
  · exact h1
  · exfalso
    apply h
    simp only [dot] at h1 ⊢
    have h2 : v.x = 0 := by nlinarith [sq_nonneg v.x, sq_nonneg v.y, sq_nonneg v.z]
    have h3 : v.y = 0 := by nlinarith [sq_nonneg v.x, sq_nonneg v.y, sq_nonneg v.z]
    have h4 : v.z = 0 := by nlinarith [sq_nonneg v.x, sq_nonneg v.y, sq_nonneg v.z]
    rw [h2, h3, h4]
    ring

/-- The second half of a flat convex quadrangle is turned the same way. -/
theorem second_half {p q r s w : P3 ℝ} (h0 : signedVolume p q r s = 0)
    (h1 : 0 < signedVolume p q r w * signedVolume p r s w) :
    ∃ k : ℝ, 0 < k ∧ cross (r.sub p) (s.sub p) = scale k (cross (q.sub p) (r.sub p)) := by
  have hne : signedVolume p q r w ≠ 0 := fun h => by rw [h, zero_mul] at h1; exact lt_irrefl _ h1
  refine ⟨signedVolume p r s w / signedVolume p q r w, ?_, ?_⟩
  · have := div_pos h1 (mul_self_pos.2 hne)
    rwa [mul_div_mul_left _ _ hne] at this
  · have hx : (cross (r.sub p) (s.sub p)).x * signedVolume p q r w =
        (cross (q.sub p) (r.sub p)).x * signedVolume p r s w := by
      simp only [signedVolume, cross, P3.sub] at *
      linear_combination ((r.y - p.y) * (w.z - p.z) - (r.z - p.z) * (w.y - p.y)) * h0
    have hy : (cross (r.sub p) (s.sub p)).y * signedVolume p q r w =
        (cross (q.sub p) (r.sub p)).y * signedVolume p r s w := by
      simp only [signedVolume, cross, P3.sub] at *
      linear_combination ((r.z - p.z) * (w.x - p.x) - (r.x - p.x) * (w.z - p.z)) * h0
    have hz : (cross (r.sub p) (s.sub p)).z * signedVolume p q r w =
        (cross (q.sub p) (r.sub p)).z * signedVolume p r s w := by
      simp only [signedVolume, cross, P3.sub] at *
      linear_combination ((r.x - p.x) * (w.y - p.y) - (r.y - p.y) * (w.x - p.x)) * h0
    ext
    · show _ = _ * (_ / _); rw [mul_div_assoc', eq_div_iff hne]; exact hx
    · show _ = _ * (_ / _); rw [mul_div_assoc', eq_div_iff hne]; exact hy
    · show _ = _ * (_ / _); rw [mul_div_assoc', eq_div_iff hne]; exact hz

theorem norm3_scale {k : ℝ} (hk : 0 ≤ k) (v : P3 ℝ) : norm3 (scale k v) = k * norm3 v := by
  have : dot (scale k v) (scale k v) = k ^ 2 * dot v v := by simp only [dot, scale]; ring
  rw [norm3, this, Real.sqrt_mul (sq_nonneg k), Real.sqrt_sq hk]
  rfl

/-- The vector of a face: half the sum of the vector products of its triangles. -/
noncomputable def fanVector (P : ℕ → P3 ℝ) (f : List ℕ) : P3 ℝ :=
  ((fanOf f).map fun t => scale (1 / 2) (cross ((P t.2.1).sub (P t.1)) ((P t.2.2).sub (P t.1)))).foldr P3.plus ⟨0, 0, 0⟩

theorem face_vector {pts : List (P3 ℝ)} {c : List ℕ} {row : List (List ℕ)} (hc : ConvexCell (pointOf pts) c row)
    {f : List ℕ} (hf : f ∈ row) (hl : f.length = 3 ∨ f.length = 4) {w : ℕ} (hw : w ∈ c) (hwf : w ∉ f) {A : ℝ} {v : P3 ℝ}
    (hA : faceArea pts f = .ok A) (hv : triangleNormal pts [0, 1, 2] f = .ok v) :
    scale A (scale (1 / norm3 v) v) = fanVector (pointOf pts) f := by
  unfold faceArea at hA
  rw [hv, ok_bind] at hA
  rcases face_cases hl with ⟨a, b, d, rfl⟩ | ⟨a, b, d, e, rfl⟩
  · obtain ⟨p, q, r, h1, h2, h3, rfl⟩ := (triangleNormal_three (by rfl)).1 hv
    rw [if_neg (by simp)] at hA
    cases hA
    have hs := hc.oneSide _ hf (a, b, d) (by simp [faceCorners]) (a, b, d) (by simp [faceCorners]) w hw hwf w hw hwf
    rw [sideOf, pointOf_row h1, pointOf_row h2, pointOf_row h3] at hs
    have hn : 0 < norm3 (cross (q.sub p) (r.sub p)) := by
      refine norm3_pos (w := (pointOf pts w).sub p) ?_
      rw [← sv_dot]
      intro h
      rw [h] at hs
      simp at hs
    simp only [fanVector, fanOf, List.tail_cons, List.zip_cons_cons, List.zip_nil_right, List.map_cons, List.map_nil,
      List.foldr_cons, List.foldr_nil, pointOf_row h1, pointOf_row h2, pointOf_row h3]
    ext <;> simp only [scale, P3.plus] <;> field_simp <;> ring
  · obtain ⟨p, q, r, h1, h2, h3, rfl⟩ := (triangleNormal_three (by rfl)).1 hv
    rw [if_pos (by rfl)] at hA
    obtain ⟨u, hu, hA⟩ := bind_eq_ok.1 hA
    obtain ⟨p', r', s, h1', h3', h4, rfl⟩ := (triangleNormal_three (by rfl)).1 hu
    rw [h1] at h1'
    rw [h3] at h3'
    cases h1'
    cases h3'
    cases hA
    have hs := hc.oneSide _ hf (a, b, d) (by simp [faceCorners]) (d, e, a) (by simp [faceCorners]) w hw hwf w hw hwf
    have h0 := hc.flat _ hf (a, b, d) (by simp [faceCorners]) e (by simp)
    rw [sideOf] at h0
    rw [sideOf, sideOf] at hs
    simp only [pointOf_row h1, pointOf_row h2, pointOf_row h3, pointOf_row h4] at hs h0
    have hturn : signedVolume r s p (pointOf pts w) = signedVolume p r s (pointOf pts w) := by
      unfold signedVolume; ring
    rw [hturn] at hs
    obtain ⟨k, hk, hkv⟩ := second_half h0 hs
    have hn : 0 < norm3 (cross (q.sub p) (r.sub p)) := by
      refine norm3_pos (w := (pointOf pts w).sub p) ?_
      rw [← sv_dot]
      intro h
      rw [h] at hs
      simp at hs
    simp only [fanVector, fanOf, List.tail_cons, List.zip_cons_cons, List.zip_nil_right, List.map_cons, List.map_nil,
      List.foldr_cons, List.foldr_nil, pointOf_row h1, pointOf_row h2, pointOf_row h3, pointOf_row h4]
    rw [hkv, norm3_scale hk.le]
    ext <;> simp only [scale, P3.plus] <;> field_simp <;> ring

theorem fanVector_map (P : ℕ → P3 ℝ) (g : ℕ → ℕ) (f : List ℕ) :
    fanVector P (f.map g) = fanVector (fun i => P (g i)) f := by
  rw [fanVector, fanVector, fanOf_map, List.map_map]
  rfl

/-- The vectors of the faces of a cell add up to zero. -/
theorem fanVector_sum (Q : ℕ → P3 ℝ) {t : CellType} {l : List (List ℕ)} (hl : faceTable t = .ok l) :
    (l.map (fanVector Q)).foldr P3.plus ⟨0, 0, 0⟩ = ⟨0, 0, 0⟩ := by
  cases t <;> cases hl <;>
    simp only [List.map_cons, List.map_nil, List.foldr_cons, List.foldr_nil, fanVector, fanOf, List.tail_cons,
      List.zip_cons_cons, List.zip_nil_right] <;> ext <;> simp only [P3.plus, scale, cross, P3.sub] <;> ring

theorem nondegenerate {p q r : P3 ℝ} (h : 0 < norm3 (cross (q.sub p) (r.sub p))) : ¬ IsTriangleArea p q r 0 := by
  rintro ⟨-, h0⟩
  have h1 := norm3_sq (cross (q.sub p) (r.sub p))
  have h2 := pow_pos h 2
  rw [h1] at h2
  simp only [dot, cross, P3.sub] at h2
  simp only [distSq] at h0
  nlinarith

/-- Distances along a normal vector are proportional to the sides. -/
theorem normal_sides {pts : List (P3 ℝ)} {c : List ℕ} {row : List (List ℕ)} (hc : ConvexCell (pointOf pts) c row)
    {f : List ℕ} (hf : f ∈ row) (hl : f.length = 3 ∨ f.length = 4) {w : ℕ} (hw : w ∈ c) (hwf : w ∉ f) {v : P3 ℝ}
    (hv : triangleNormal pts [0, 1, 2] f = .ok v) :
    IsUnit3 (scale (1 / norm3 v) v) ∧ ∃ t ∈ faceCorners f, ∃ K : ℝ, 0 < K ∧ ∀ u ∈ f, ∀ x,
      sideOf (pointOf pts) t x = K * distAlong (scale (1 / norm3 v) v) (pointOf pts u) (pointOf pts x) := by
  obtain ⟨p, q, r, hp, hn⟩ := faceNormal_ok hl hv
  obtain ⟨a, b, d, hab, hcor⟩ : ∃ a b d, f.take 3 = [a, b, d] ∧ (a, b, d) ∈ faceCorners f := by
    rcases face_cases hl with ⟨a, b, d, rfl⟩ | ⟨a, b, d, e, rfl⟩ <;>
      exact ⟨a, b, d, rfl, by simp [faceCorners]⟩
  rw [hab] at hp
  cases hp with
  | cons h1 hp => cases hp with
  | cons h2 hp => cases hp with
  | cons h3 hp =>
  have hs := hc.oneSide _ hf _ hcor _ hcor w hw hwf w hw hwf
  rw [sideOf, pointOf_row h1, pointOf_row h2, pointOf_row h3] at hs
  have hpos : 0 < norm3 (cross (q.sub p) (r.sub p)) := by
    refine norm3_pos (w := (pointOf pts w).sub p) ?_
    rw [← sv_dot]
    intro h
    rw [h] at hs
    simp at hs
  have hN := hn (nondegenerate hpos)
  refine ⟨hN.1, (a, b, d), hcor, _, hN.2.2.2, fun u hu x => ?_⟩
  have hx := normal_scale hN (pointOf pts x)
  have hu' := normal_scale hN (pointOf pts u)
  have h0 := hc.flat _ hf _ hcor u hu
  rw [sideOf, pointOf_row h1, pointOf_row h2, pointOf_row h3] at h0
  rw [sideOf, pointOf_row h1, pointOf_row h2, pointOf_row h3]
  rw [h0] at hu'
  have hz := (mul_eq_zero.1 hu'.symm).resolve_left hN.2.2.2.ne'
  rw [hx]
  congr 1
  simp only [distAlong] at hz ⊢
  linear_combination hz

/-- The vertices of a cell off one of its faces. -/
theorem vertex_off {P : ℕ → P3 ℝ} {t : CellType} {c : List ℕ} {l row : List (List ℕ)} (hl : faceTable t = .ok l)
    (h : List.Forall₂ (fun idx f => List.Forall₂ (fun i v => c[i]? = some v) idx f) l row) (hc : ConvexCell P c row)
    {f : List ℕ} (hf : f ∈ row) : ∃ w ∈ c, w ∉ f := by
  obtain ⟨v1, -, v3⟩ := faceTable_vertices hl
  have hlen := row_length hl h
  rw [row_eq h] at hf
  obtain ⟨g, hg, rfl⟩ := List.mem_map.1 hf
  obtain ⟨-, i, hi, hig⟩ := v3 g hg
  refine ⟨vertexAt c i, ?_, fun hm => ?_⟩
  · rw [vertexAt_eq (by omega)]
    exact List.getElem_mem _
  · obtain ⟨j, hj, he⟩ := List.mem_map.1 hm
    have hj' := v1 g hg j hj
    rw [vertexAt_eq (by omega), vertexAt_eq (by omega)] at he
    have := (List.Nodup.getElem_inj_iff hc.distinct).1 he
    exact hig (this ▸ hj)

theorem face_lengths {t : CellType} {c : List ℕ} {l row : List (List ℕ)} (hl : faceTable t = .ok l)
    (h : List.Forall₂ (fun idx f => List.Forall₂ (fun i v => c[i]? = some v) idx f) l row) {f : List ℕ} (hf : f ∈ row) :
    f.length = 3 ∨ f.length = 4 := by
  rw [row_eq h] at hf
  obtain ⟨g, hg, rfl⟩ := List.mem_map.1 hf
  rw [List.length_map]
  cases t <;> cases hl <;> revert g <;> simp

theorem plus_sum {α : Type} (l : List α) (g : α → P3 ℝ) : (l.map g).foldr P3.plus ⟨0, 0, 0⟩ =
    ⟨(l.map fun e => (g e).x).sum, (l.map fun e => (g e).y).sum, (l.map fun e => (g e).z).sum⟩ := by
  induction l with
  | nil => rfl
  | cons a l ih =>
    rw [List.map_cons, List.foldr_cons, ih]
    simp only [P3.plus, List.map_cons, List.sum_cons]

/-- The volumes of the cells, with the tetrahedra used. -/
theorem volumes_tetras {D : Type} {m : Mesh ℝ D} {vols : List ℝ} (h : volumes m = .ok vols) :
    List.Forall₂ (fun (tc : CellType × List ℕ) v => ∃ ts, tetras tc.1 = .ok ts ∧ cellVolume m.points ts tc.2 = .ok v)
      (typedCells m.cells) vols := by
  unfold volumes at h
  split at h
  · exact absurd h (by simp)
  · obtain ⟨vs, h1, h2⟩ := bind_eq_ok.1 h
    cases h2
    have hf := mapM_eq_ok h1
    unfold typedCells
    generalize m.cells = cells at hf
    clear h h1
    induction hf with
    | nil => exact .nil
    | cons hx _ ih =>
      rw [List.flatMap_cons, List.flatten_cons]
      refine List.rel_append ?_ ih
      split at hx
      · exact absurd hx (by simp)
      · obtain ⟨ts, ht, hb⟩ := bind_eq_ok.1 hx
        rw [List.forall₂_map_left_iff]
        exact (mapM_eq_ok hb).imp fun _ _ h => ⟨ts, ht, h⟩

theorem forall₂_both {α β : Type} {R : α → β → Prop} {l : List α} {l' : List β} (h : List.Forall₂ R l l') {i : ℕ} {a : α}
    {b : β} (ha : l[i]? = some a) (hb : l'[i]? = some b) : R a b := by
  obtain ⟨h1, e1⟩ := List.getElem?_eq_some_iff.1 ha
  obtain ⟨h2, e2⟩ := List.getElem?_eq_some_iff.1 hb
  have := (List.forall₂_iff_get.1 h).2 i h1 h2
  simp only [List.get_eq_getElem, e1, e2] at this
  exact this

theorem padTo_get {α : Type} {n : ℕ} {x : α} {l : List α} {j : ℕ} (hj : j < n) :
    (padTo n x l)[j]? = some (l[j]?.getD x) := by
  unfold padTo
  by_cases h : j < l.length
  · rw [List.getElem?_append_left (by rw [List.length_take]; omega), List.getElem?_take_of_lt hj,
      List.getElem?_eq_getElem h, Option.getD_some]
  · rw [List.getElem?_append_right (by rw [List.length_take]; omega), List.getElem?_replicate,
      if_pos (by rw [List.length_take]; omega), List.getElem?_eq_none (by omega), Option.getD_none]

theorem padTo_length {α : Type} {n : ℕ} {x : α} {l : List α} : (padTo n x l).length = n := by
  unfold padTo
  rw [List.length_append, List.length_take, List.length_replicate]
  omega

theorem convexCell_behind {P : ℕ → P3 ℝ} {c : List ℕ} {fs : List (List ℕ)} (h1 : c.Nodup)
    (h2 : ∀ f ∈ fs, ∀ t ∈ faceCorners f, ∀ v ∈ f, sideOf P t v = 0) (h3 : BehindFaces P c fs) : ConvexCell P c fs :=
  ⟨h1, h2, fun f hf t ht t' ht' v hv hvf v' hv' hvf' => mul_pos_of_neg_of_neg (h3 f hf t ht v hv hvf)
    (h3 f hf t' ht' v' hv' hvf')⟩

end Verif.Mesh
