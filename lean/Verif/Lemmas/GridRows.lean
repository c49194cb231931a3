import Verif.Lemmas.GridConn
import Verif.Props.Geometry
import Verif.Props.Grid

/-!
# Lemmas on the quantities of the connections of structured grids (C81)
-/

namespace Verif.Mesh
open Verif.Py Verif.Model Verif.Spec Verif.Props

/-- The distance of a centre from the face. -/
theorem orthogonal_axis {f : Interface} {b : Bool} {c : P3 ℝ} {t s : ℝ} (h : dot (c.sub f.point) f.normal = t * s)
    (hs : s ^ 2 = 1) : pointToPlane c f.point f.normal b = if b then 1e-9 else |t| := by
  unfold pointToPlane
  rw [h, abs_mul]
  have : |s| = 1 := by
    rw [← sq_eq_sq₀ (abs_nonneg s) (by norm_num), sq_abs, hs]
    norm_num
  rw [this, mul_one]

/-- Quantities of a connection along the first axis. -/
theorem quantities_x (opt : NodalDistance) (f : Interface) (hu : IsUnit3 f.normal) (h1 : f.normal.y = 0)
    (h2 : f.normal.z = 0) (h3 : f.c1.y = f.c2.y) (h4 : f.c1.z = f.c2.z) (h5 : f.c1.x < f.c2.x) :
    isot f.line = 1 ∧ angle f.line = 0 ∧ nodalDistances opt f =
      (if f.bound1 then 1e-9 else |f.c1.x - f.point.x|, if f.bound2 then 1e-9 else |f.c2.x - f.point.x|) := by
  have hs : f.normal.x ^ 2 = 1 := by
    unfold IsUnit3 at hu
    rw [h1, h2] at hu
    linarith
  refine ⟨(C59_direction f).1 h5.ne h3 h4, ?_, ?_⟩
  · unfold angle Interface.line dot P3.sub
    simp only
    rw [h4]
    simp
  · have hag : nodalDistances .line f = nodalDistances .orthogonal f := by
      refine C59_agree f hu ((f.c2.x - f.c1.x) * f.normal.x) ?_ ⟨?_, ?_, ?_⟩
      · refine mul_ne_zero (by linarith) ?_
        rintro h0
        rw [h0] at hs
        norm_num at hs
      · linear_combination -(f.c2.x - f.c1.x) * hs
      · rw [h1, h3]; ring
      · rw [h2, h4]; ring
    have : nodalDistances opt f = nodalDistances .orthogonal f := by cases opt <;> [exact hag; rfl]
    rw [this]
    unfold nodalDistances
    simp only
    rw [orthogonal_axis (t := f.c1.x - f.point.x) (s := f.normal.x) ?_ hs,
      orthogonal_axis (t := f.c2.x - f.point.x) (s := f.normal.x) ?_ hs] <;>
    · unfold dot P3.sub
      rw [h1, h2]
      ring

/-- Quantities of a connection along the second axis. -/
theorem quantities_y (opt : NodalDistance) (f : Interface) (hu : IsUnit3 f.normal) (h1 : f.normal.x = 0)
    (h2 : f.normal.z = 0) (h3 : f.c1.x = f.c2.x) (h4 : f.c1.z = f.c2.z) (h5 : f.c1.y < f.c2.y) :
    isot f.line = 2 ∧ angle f.line = 0 ∧ nodalDistances opt f =
      (if f.bound1 then 1e-9 else |f.c1.y - f.point.y|, if f.bound2 then 1e-9 else |f.c2.y - f.point.y|) := by
  have hs : f.normal.y ^ 2 = 1 := by
    unfold IsUnit3 at hu
    rw [h1, h2] at hu
    linarith
  refine ⟨(C59_direction f).2.1 h3 h5.ne h4, ?_, ?_⟩
  · unfold angle Interface.line dot P3.sub
    simp only
    rw [h4]
    simp
  · have hag : nodalDistances .line f = nodalDistances .orthogonal f := by
      refine C59_agree f hu ((f.c2.y - f.c1.y) * f.normal.y) ?_ ⟨?_, ?_, ?_⟩
      · refine mul_ne_zero (by linarith) ?_
        rintro h0
        rw [h0] at hs
        norm_num at hs
      · rw [h1, h3]; ring
      · linear_combination -(f.c2.y - f.c1.y) * hs
      · rw [h2, h4]; ring
    have : nodalDistances opt f = nodalDistances .orthogonal f := by cases opt <;> [exact hag; rfl]
    rw [this]
    unfold nodalDistances
    simp only
    rw [orthogonal_axis (t := f.c1.y - f.point.y) (s := f.normal.y) ?_ hs,
      orthogonal_axis (t := f.c2.y - f.point.y) (s := f.normal.y) ?_ hs] <;>
    · unfold dot P3.sub
      rw [h1, h2]
      ring

/-- Quantities of a connection along the third axis, downwards. -/
theorem quantities_z (opt : NodalDistance) (f : Interface) (hu : IsUnit3 f.normal) (h1 : f.normal.x = 0)
    (h2 : f.normal.y = 0) (h3 : f.c1.x = f.c2.x) (h4 : f.c1.y = f.c2.y) (h5 : f.c2.z < f.c1.z) :
    isot f.line = 3 ∧ angle f.line = 1 ∧ nodalDistances opt f =
      (if f.bound1 then 1e-9 else |f.c1.z - f.point.z|, if f.bound2 then 1e-9 else |f.c2.z - f.point.z|) := by
  have hs : f.normal.z ^ 2 = 1 := by
    unfold IsUnit3 at hu
    rw [h1, h2] at hu
    linarith
  refine ⟨(C59_direction f).2.2.1 h3 h4 h5.ne', ?_, ?_⟩
  · have hne : f.c1 ≠ f.c2 := by
      intro h
      rw [h] at h5
      exact lt_irrefl _ h5
    have := (C59_angle f hne).1
    have hd : dist3 f.c1 f.c2 = f.c1.z - f.c2.z := by
      unfold dist3 distSq
      rw [h3, h4]
      have : (f.c2.x - f.c2.x) ^ 2 + (f.c2.y - f.c2.y) ^ 2 + (f.c1.z - f.c2.z) ^ 2 = (f.c1.z - f.c2.z) ^ 2 := by ring
      rw [this, Real.sqrt_sq (by linarith)]
    rw [hd] at this
    have hz : f.c1.z - f.c2.z ≠ 0 := by linarith
    exact mul_right_cancel₀ hz (by rw [this, one_mul])
  · have hag : nodalDistances .line f = nodalDistances .orthogonal f := by
      refine C59_agree f hu ((f.c2.z - f.c1.z) * f.normal.z) ?_ ⟨?_, ?_, ?_⟩
      · refine mul_ne_zero (by linarith) ?_
        rintro h0
        rw [h0] at hs
        norm_num at hs
      · rw [h1, h3]; ring
      · rw [h2, h4]; ring
      · linear_combination -(f.c2.z - f.c1.z) * hs
    have : nodalDistances opt f = nodalDistances .orthogonal f := by cases opt <;> [exact hag; rfl]
    rw [this]
    unfold nodalDistances
    simp only
    rw [orthogonal_axis (t := f.c1.z - f.point.z) (s := f.normal.z) ?_ hs,
      orthogonal_axis (t := f.c2.z - f.point.z) (s := f.normal.z) ?_ hs] <;>
    · unfold dot P3.sub
      rw [h1, h2]
      ring

/-- The area of a rectangle of two axes. -/
theorem rectangle_area {p q r s : P3 ℝ} {a b A : ℝ} (h : IsArea [p, q, r, s] A) (ha : 0 ≤ a) (hb : 0 ≤ b)
    (h1 : distSq p q = a ^ 2) (h2 : distSq q r = b ^ 2) (h3 : distSq r s = a ^ 2) (h4 : distSq s p = b ^ 2)
    (h5 : distSq r p = a ^ 2 + b ^ 2) : A = a * b := by
  obtain ⟨A1, A2, g1, g2, rfl⟩ := h
  have h5' : distSq p r = a ^ 2 + b ^ 2 := by rw [← h5]; unfold distSq; ring
  have e1 : A1 = a * b / 2 := isTriangleArea_unique g1 ⟨by positivity, by rw [h1, h2, h5]; ring⟩
  have e2 : A2 = a * b / 2 := isTriangleArea_unique g2 ⟨by positivity, by rw [h5', h3, h4]; ring⟩
  rw [e1, e2]
  ring

/-- A triangle with an area. -/
theorem rectangle_proper {p q r : P3 ℝ} {a b : ℝ} (ha : 0 < a) (hb : 0 < b)
    (h1 : distSq p q = a ^ 2) (h2 : distSq q r = b ^ 2) (h5 : distSq r p = a ^ 2 + b ^ 2) :
    ¬ IsTriangleArea p q r 0 := by
  intro h
  have : (0 : ℝ) = a * b / 2 := isTriangleArea_unique h ⟨by positivity, by rw [h1, h2, h5]; ring⟩
  have : 0 < a * b := by positivity
  linarith

/-- The points of a face of the grid. -/
theorem faceVertices_map {pts : List (P3 ℝ)} {G : ℕ × ℕ × ℕ → ℕ} {C : ℕ × ℕ × ℕ → P3 ℝ} {f : List (ℕ × ℕ × ℕ)}
    {ps : List (P3 ℝ)} (h : List.Forall₂ (fun i q => pts[i]? = some q) (f.map G) ps)
    (hC : ∀ t ∈ f, pts[G t]? = some (C t)) : ps = f.map C := by
  rw [List.forall₂_map_left_iff] at h
  induction h with
  | nil => rfl
  | cons a _ ih =>
    have := hC _ List.mem_cons_self
    rw [this] at a
    rw [List.map_cons, ← ih fun t ht => hC t (List.mem_cons_of_mem _ ht), Option.some.inj a]

theorem plane_getD (d : List ℝ) (i : ℕ) (h : i < d.length) : plane d (i + 1) = plane d i + d.getD i 0 := by
  rw [plane_succ d i _ (List.getElem?_eq_getElem h), getD_get _ _ _ (List.getElem?_eq_getElem h)]

/-- The centre of a cell of a grid is its middle. -/
theorem center_grid {pts : List (P3 ℝ)} {G : ℕ × ℕ × ℕ → ℕ} {dx dy dz : List ℝ} {o : P3 ℝ}
    (hG : ∀ a b c, a ≤ dx.length → b ≤ dy.length → c ≤ dz.length → pts[G (a, b, c)]? = some (corner dx dy dz o a b c))
    {v : ℕ × ℕ × ℕ} (hv : v.1 < dx.length ∧ v.2.1 < dy.length ∧ v.2.2 < dz.length) {p : P3 ℝ}
    (h : IsCenter pts ((meshVertices3 v).map G) p) : p = cellMiddle dx dy dz o v := by
  obtain ⟨-, ps, h1, h2, h3, h4⟩ := h
  have := faceVertices_map (C := fun t => corner dx dy dz o t.1 t.2.1 t.2.2) h1 (by
    intro t ht
    have := mem_meshVertices3 ht
    exact hG t.1 t.2.1 t.2.2 (by omega) (by omega) (by omega))
  subst this
  obtain ⟨i, j, k⟩ := v
  obtain ⟨x, y, z⟩ := p
  simp only [meshVertices3, List.map_cons, List.map_nil, List.length_cons, List.length_nil, List.sum_cons, List.sum_nil,
    corner] at h2 h3 h4
  simp only at hv
  rw [plane_getD dx i hv.1] at h2
  rw [plane_getD dy j hv.2.1] at h3
  rw [plane_getD dz k hv.2.2] at h4
  simp only [zero_add, Nat.reduceAdd, Nat.cast_ofNat] at h2 h3 h4
  simp only [cellMiddle, P3.mk.injEq]
  refine ⟨?_, ?_, ?_⟩ <;> linarith

/-- The quantities of a connection of a grid. -/
theorem link_grid (opt : NodalDistance) {pts : List (P3 ℝ)} {G : ℕ × ℕ × ℕ → ℕ} {dx dy dz : List ℝ} {o : P3 ℝ}
    (hG : ∀ a b c, a ≤ dx.length → b ≤ dy.length → c ≤ dz.length → pts[G (a, b, c)]? = some (corner dx dy dz o a b c))
    (px : ∀ x ∈ dx, 0 < x) (py : ∀ y ∈ dy, 0 < y) (pz : ∀ z ∈ dz, 0 < z)
    {v w : ℕ × ℕ × ℕ} (hv : v.1 < dx.length ∧ v.2.1 < dy.length ∧ v.2.2 < dz.length)
    (hw : w.1 < dx.length ∧ w.2.1 < dy.length ∧ w.2.2 < dz.length) {axis : GridAxis} (hl : Linked axis v w)
    {a b : ℕ} (hab : FacePair v a w b) {f : Interface} {face : List (ℕ × ℕ × ℕ)} (hf : (faceTriples v)[a]? = some face)
    {ps : List (P3 ℝ)} (hps : List.Forall₂ (fun i q => pts[i]? = some q) (face.map G) ps) {A : ℝ} (hA : IsArea ps A)
    {p q s : P3 ℝ} (ht : ps.take 3 = [p, q, s]) (hp : f.point = p) (hn : ¬ IsTriangleArea p q s 0 → IsNormal p q s f.normal)
    (h1 : IsCenter pts ((meshVertices3 v).map G) f.c1) (h2 : IsCenter pts ((meshVertices3 w).map G) f.c2) :
    isot f.line = axis.number ∧ angle f.line = (if axis = .z then 1 else 0) ∧ A = across axis (cellSizes dx dy dz v) ∧
      nodalDistances opt f =
        (if f.bound1 then 1e-9 else onAxis axis (cellSizes dx dy dz v) / 2,
          if f.bound2 then 1e-9 else onAxis axis (cellSizes dx dy dz w) / 2) := by
  have c1 := center_grid hG hv h1
  have c2 := center_grid hG hw h2
  have hps := faceVertices_map (C := fun t => corner dx dy dz o t.1 t.2.1 t.2.2) hps (by
    intro t ht
    have := mem_faceTriples (List.mem_of_getElem? hf) ht
    exact hG t.1 t.2.1 t.2.2 (by omega) (by omega) (by omega))
  subst hps
  obtain ⟨i, j, k⟩ := v
  obtain ⟨i', j', k'⟩ := w
  simp only at hv hw
  have pos : ∀ (d : List ℝ) (n : ℕ), (∀ x ∈ d, 0 < x) → n < d.length → 0 < d.getD n 0 := by
    intro d n hd hn
    rw [getD_get _ _ _ (List.getElem?_eq_getElem hn)]
    exact hd _ (List.getElem_mem hn)
  have x0 := pos dx i px hv.1
  have y0 := pos dy j py hv.2.1
  have z0 := pos dz k pz hv.2.2
  have x1 := pos dx i' px hw.1
  have y1 := pos dy j' py hw.2.1
  have z1 := pos dz k' pz hw.2.2
  have ex := plane_getD dx i hv.1
  have ey := plane_getD dy j hv.2.1
  have ez := plane_getD dz k hv.2.2
  cases axis
  · have ha : a = 3 := by
      simp only [FacePair, Linked, Prod.mk.injEq] at hab hl
      omega
    subst ha
    cases hf
    simp only [Linked, Prod.mk.injEq] at hl
    obtain ⟨rfl, rfl, rfl⟩ := hl
    simp only [List.map_cons, List.map_nil, corner, ex, ey, ez, List.take_succ_cons, List.take_zero, List.cons.injEq,
      and_true] at ht hA
    obtain ⟨rfl, rfl, rfl⟩ := ht
    have hN := hn (rectangle_proper y0 z0 (by simp only [distSq]; ring) (by simp only [distSq]; ring)
      (by simp only [distSq]; ring))
    obtain ⟨hu, n1, n2, -⟩ := hN
    simp only [distAlong] at n1 n2
    have ny : f.normal.y = 0 := by
      have : f.normal.y * dy.getD j' 0 = 0 := by linarith
      exact (mul_eq_zero.1 this).resolve_right y0.ne'
    have nz : f.normal.z = 0 := by
      rw [ny] at n2
      have : f.normal.z * dz.getD k' 0 = 0 := by linarith
      exact (mul_eq_zero.1 this).resolve_right z0.ne'
    obtain ⟨q1, q2, q3⟩ := quantities_x opt f hu ny nz (by rw [c1, c2]; rfl) (by rw [c1, c2]; rfl) (by
      rw [c1, c2]
      simp only [cellMiddle]
      linarith)
    refine ⟨q1, q2, ?_, ?_⟩
    · have e := rectangle_area hA y0.le z0.le (by simp only [distSq]; ring) (by simp only [distSq]; ring)
        (by simp only [distSq]; ring) (by simp only [distSq]; ring) (by simp only [distSq]; ring)
      exact e
    · rw [q3, hp, c1, c2]
      simp only [cellMiddle, onAxis, cellSizes, ex]
      congr 2
      · rw [abs_of_nonpos (by linarith)]; ring
      · rw [abs_of_nonneg (by linarith)]; ring
  · have ha : a = 4 := by
      simp only [FacePair, Linked, Prod.mk.injEq] at hab hl
      omega
    subst ha
    cases hf
    simp only [Linked, Prod.mk.injEq] at hl
    obtain ⟨rfl, rfl, rfl⟩ := hl
    simp only [List.map_cons, List.map_nil, corner, ex, ey, ez, List.take_succ_cons, List.take_zero, List.cons.injEq,
      and_true] at ht hA
    obtain ⟨rfl, rfl, rfl⟩ := ht
    have hN := hn (rectangle_proper x0 z0 (by simp only [distSq]; ring) (by simp only [distSq]; ring)
      (by simp only [distSq]; ring))
    obtain ⟨hu, n1, n2, -⟩ := hN
    simp only [distAlong] at n1 n2
    have nx : f.normal.x = 0 := by
      have : f.normal.x * dx.getD i' 0 = 0 := by linarith
      exact (mul_eq_zero.1 this).resolve_right x0.ne'
    have nz : f.normal.z = 0 := by
      rw [nx] at n2
      have : f.normal.z * dz.getD k' 0 = 0 := by linarith
      exact (mul_eq_zero.1 this).resolve_right z0.ne'
    obtain ⟨q1, q2, q3⟩ := quantities_y opt f hu nx nz (by rw [c1, c2]; rfl) (by rw [c1, c2]; rfl) (by
      rw [c1, c2]
      simp only [cellMiddle]
      linarith)
    refine ⟨q1, q2, ?_, ?_⟩
    · have e := rectangle_area hA x0.le z0.le (by simp only [distSq]; ring) (by simp only [distSq]; ring)
        (by simp only [distSq]; ring) (by simp only [distSq]; ring) (by simp only [distSq]; ring)
      exact e
    · rw [q3, hp, c1, c2]
      simp only [cellMiddle, onAxis, cellSizes, ey]
      congr 2
      · rw [abs_of_nonpos (by linarith)]; ring
      · rw [abs_of_nonneg (by linarith)]; ring
  · have ha : a = 0 := by
      simp only [FacePair, Linked, Prod.mk.injEq] at hab hl
      omega
    subst ha
    cases hf
    have ez' := plane_getD dz k' hw.2.2
    simp only [Linked, Prod.mk.injEq] at hl
    obtain ⟨rfl, rfl, rfl⟩ := hl
    simp only [List.map_cons, List.map_nil, corner, ex, ey, ez, ez', List.take_succ_cons, List.take_zero, List.cons.injEq,
      and_true] at ht hA
    obtain ⟨rfl, rfl, rfl⟩ := ht
    have hN := hn (rectangle_proper y0 x0 (by simp only [distSq]; ring) (by simp only [distSq]; ring)
      (by simp only [distSq]; ring))
    obtain ⟨hu, n1, n2, -⟩ := hN
    simp only [distAlong] at n1 n2
    have ny : f.normal.y = 0 := by
      have : f.normal.y * dy.getD j 0 = 0 := by linarith
      exact (mul_eq_zero.1 this).resolve_right y0.ne'
    have nx : f.normal.x = 0 := by
      rw [ny] at n2
      have : f.normal.x * dx.getD i 0 = 0 := by linarith
      exact (mul_eq_zero.1 this).resolve_right x0.ne'
    obtain ⟨q1, q2, q3⟩ := quantities_z opt f hu nx ny (by rw [c1, c2]; rfl) (by rw [c1, c2]; rfl) (by
      rw [c1, c2]
      simp only [cellMiddle, ez']
      linarith)
    refine ⟨q1, q2, ?_, ?_⟩
    · rw [rectangle_area hA y0.le x0.le (by simp only [distSq]; ring) (by simp only [distSq]; ring)
        (by simp only [distSq]; ring) (by simp only [distSq]; ring) (by simp only [distSq]; ring)]
      exact mul_comm _ _
    · rw [q3, hp, c1, c2]
      simp only [cellMiddle, onAxis, cellSizes, ez']
      congr 2
      · rw [abs_of_nonneg (by linarith)]; ring
      · rw [abs_of_nonpos (by linarith)]; ring

end Verif.Mesh
