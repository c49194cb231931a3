import Verif.Lemmas.Grid
import Mathlib.Algebra.BigOperators.Ring.List
import Mathlib.Algebra.Order.Ring.Abs
import Mathlib.Tactic.Positivity

/-!
# Helper lemmas about volumes
-/

namespace Verif.Mesh
open Verif.Py Verif.Model Verif.Spec

section
variable {K : Type} [Field K]

variable [LinearOrder K]

/-- Six times the volume of the tetrahedron on four points. -/
def tet6 (p0 p1 p2 p3 : P3 K) : K := |tripleProduct (p1.sub p0) (p2.sub p0) (p3.sub p0)|

theorem rowsAt_of {α : Type} {pts : List α} {c : List ℕ} {ps : List α}
    (h : List.Forall₂ (fun i q => pts[i]? = some q) c ps) : rowsAt pts c = .ok ps := by
  refine mapM_of_forall₂ (h.imp fun i q hq => ?_)
  rw [hq]

/-- The volume of a cell all of whose tetrahedra are found. -/
theorem cellVolume_ok {pts : List (P3 K)} {ts : List (List ℕ)} {c : List ℕ} {vs : List K}
    (h : List.Forall₂ (fun t v => ∃ tt p0 p1 p2 p3, rowsAt c t = .ok tt ∧
      rowsAt pts tt = .ok [p0, p1, p2, p3] ∧ v = tet6 p0 p1 p2 p3) ts vs) :
    cellVolume pts ts c = .ok (vs.sum / 6) := by
  unfold cellVolume
  rw [bind_eq_ok]
  refine ⟨vs, mapM_of_forall₂ (h.imp fun t v hv => ?_), rfl⟩
  obtain ⟨tt, p0, p1, p2, p3, h1, h2, rfl⟩ := hv
  rw [h1, ok_bind, h2]
  rfl

theorem tet_at {pts : List (P3 K)} {c : List ℕ} {t : List ℕ} {a b d e : ℕ} {p0 p1 p2 p3 : P3 K}
    (h1 : rowsAt c t = .ok [a, b, d, e]) (ha : pts[a]? = some p0) (hb : pts[b]? = some p1)
    (hd : pts[d]? = some p2) (he : pts[e]? = some p3) :
    ∃ tt p0' p1' p2' p3', rowsAt c t = .ok tt ∧
      rowsAt pts tt = .ok [p0', p1', p2', p3'] ∧ tet6 p0 p1 p2 p3 = tet6 p0' p1' p2' p3' :=
  ⟨_, p0, p1, p2, p3, h1, rowsAt_of (.cons ha (.cons hb (.cons hd (.cons he .nil)))), rfl⟩

/-- The tetrahedra of a hexahedron. -/
theorem hex_volume {pts : List (P3 K)} {c : List ℕ} {q0 q1 q2 q3 q4 q5 q6 q7 : P3 K}
    (h : Vertices pts c [q0, q1, q2, q3, q4, q5, q6, q7]) :
    cellVolume pts [[0, 1, 3, 4], [1, 4, 5, 6], [1, 2, 3, 6], [3, 4, 6, 7], [1, 3, 4, 6]] c =
      .ok ((tet6 q0 q1 q3 q4 + (tet6 q1 q4 q5 q6 + (tet6 q1 q2 q3 q6 + (tet6 q3 q4 q6 q7 +
        (tet6 q1 q3 q4 q6 + 0))))) / 6) := by
  unfold Vertices at h
  rw [List.forall₂_cons_right_iff] at h
  obtain ⟨c0, c', h0, h, rfl⟩ := h
  rw [List.forall₂_cons_right_iff] at h
  obtain ⟨c1, c', h1, h, rfl⟩ := h
  rw [List.forall₂_cons_right_iff] at h
  obtain ⟨c2, c', h2, h, rfl⟩ := h
  rw [List.forall₂_cons_right_iff] at h
  obtain ⟨c3, c', h3, h, rfl⟩ := h
  rw [List.forall₂_cons_right_iff] at h
  obtain ⟨c4, c', h4, h, rfl⟩ := h
  rw [List.forall₂_cons_right_iff] at h
  obtain ⟨c5, c', h5, h, rfl⟩ := h
  rw [List.forall₂_cons_right_iff] at h
  obtain ⟨c6, c', h6, h, rfl⟩ := h
  rw [List.forall₂_cons_right_iff] at h
  obtain ⟨c7, c', h7, h, rfl⟩ := h
  exact cellVolume_ok (vs := [tet6 q0 q1 q3 q4, tet6 q1 q4 q5 q6, tet6 q1 q2 q3 q6, tet6 q3 q4 q6 q7,
      tet6 q1 q3 q4 q6]) (.cons (tet_at rfl h0 h1 h3 h4) (.cons (tet_at rfl h1 h4 h5 h6)
    (.cons (tet_at rfl h1 h2 h3 h6) (.cons (tet_at rfl h3 h4 h6 h7) (.cons (tet_at rfl h1 h3 h4 h6) .nil)))))

/-- The tetrahedra of a wedge. -/
theorem wedge_volume {pts : List (P3 K)} {c : List ℕ} {q0 q1 q2 q3 q4 q5 : P3 K}
    (h : Vertices pts c [q0, q1, q2, q3, q4, q5]) :
    cellVolume pts [[0, 1, 2, 5], [0, 1, 4, 5], [0, 3, 4, 5]] c =
      .ok ((tet6 q0 q1 q2 q5 + (tet6 q0 q1 q4 q5 + (tet6 q0 q3 q4 q5 + 0))) / 6) := by
  unfold Vertices at h
  rw [List.forall₂_cons_right_iff] at h
  obtain ⟨c0, c', h0, h, rfl⟩ := h
  rw [List.forall₂_cons_right_iff] at h
  obtain ⟨c1, c', h1, h, rfl⟩ := h
  rw [List.forall₂_cons_right_iff] at h
  obtain ⟨c2, c', h2, h, rfl⟩ := h
  rw [List.forall₂_cons_right_iff] at h
  obtain ⟨c3, c', h3, h, rfl⟩ := h
  rw [List.forall₂_cons_right_iff] at h
  obtain ⟨c4, c', h4, h, rfl⟩ := h
  rw [List.forall₂_cons_right_iff] at h
  obtain ⟨c5, c', h5, h, rfl⟩ := h
  exact cellVolume_ok (vs := [tet6 q0 q1 q2 q5, tet6 q0 q1 q4 q5, tet6 q0 q3 q4 q5])
    (.cons (tet_at rfl h0 h1 h2 h5) (.cons (tet_at rfl h0 h1 h4 h5) (.cons (tet_at rfl h0 h3 h4 h5) .nil)))

/-- The tetrahedra of a pyramid. -/
theorem pyramid_volume {pts : List (P3 K)} {c : List ℕ} {q0 q1 q2 q3 q4 : P3 K}
    (h : Vertices pts c [q0, q1, q2, q3, q4]) :
    cellVolume pts [[0, 1, 3, 4], [1, 2, 3, 4]] c =
      .ok ((tet6 q0 q1 q3 q4 + (tet6 q1 q2 q3 q4 + 0)) / 6) := by
  unfold Vertices at h
  rw [List.forall₂_cons_right_iff] at h
  obtain ⟨c0, c', h0, h, rfl⟩ := h
  rw [List.forall₂_cons_right_iff] at h
  obtain ⟨c1, c', h1, h, rfl⟩ := h
  rw [List.forall₂_cons_right_iff] at h
  obtain ⟨c2, c', h2, h, rfl⟩ := h
  rw [List.forall₂_cons_right_iff] at h
  obtain ⟨c3, c', h3, h, rfl⟩ := h
  rw [List.forall₂_cons_right_iff] at h
  obtain ⟨c4, c', h4, h, rfl⟩ := h
  exact cellVolume_ok (vs := [tet6 q0 q1 q3 q4, tet6 q1 q2 q3 q4])
    (.cons (tet_at rfl h0 h1 h3 h4) (.cons (tet_at rfl h1 h2 h3 h4) .nil))

/-- The tetrahedron. -/
theorem tetra_volume {pts : List (P3 K)} {c : List ℕ} {q0 q1 q2 q3 : P3 K}
    (h : Vertices pts c [q0, q1, q2, q3]) :
    cellVolume pts [[0, 1, 2, 3]] c = .ok ((tet6 q0 q1 q2 q3 + 0) / 6) := by
  unfold Vertices at h
  rw [List.forall₂_cons_right_iff] at h
  obtain ⟨c0, c', h0, h, rfl⟩ := h
  rw [List.forall₂_cons_right_iff] at h
  obtain ⟨c1, c', h1, h, rfl⟩ := h
  rw [List.forall₂_cons_right_iff] at h
  obtain ⟨c2, c', h2, h, rfl⟩ := h
  rw [List.forall₂_cons_right_iff] at h
  obtain ⟨c3, c', h3, h, rfl⟩ := h
  exact cellVolume_ok (vs := [tet6 q0 q1 q2 q3]) (.cons (tet_at rfl h0 h1 h2 h3) .nil)

variable [IsStrictOrderedRing K]

/-- Volume of the parallelepiped on the vectors `a`, `b`, `c`. -/
theorem hex_parallelepiped {pts : List (P3 K)} {cell : List ℕ} (o a b c : P3 K)
    (h : Vertices pts cell [o, o.add a, (o.add a).add b, o.add b,
      o.add c, (o.add a).add c, ((o.add a).add b).add c, (o.add b).add c]) :
    cellVolume pts [[0, 1, 3, 4], [1, 4, 5, 6], [1, 2, 3, 6], [3, 4, 6, 7], [1, 3, 4, 6]] cell =
      .ok |det3 a b c| := by
  rw [hex_volume h]
  congr 1
  have e1 : tet6 o (o.add a) (o.add b) (o.add c) = |det3 a b c| := by
    refine abs_eq_abs.2 (.inl ?_); simp only [tripleProduct, cross, P3.sub, P3.add, det3]; ring
  have e2 : tet6 (o.add a) (o.add c) ((o.add a).add c) (((o.add a).add b).add c) = |det3 a b c| := by
    refine abs_eq_abs.2 ?_
    first
      | (left; simp only [tripleProduct, cross, P3.sub, P3.add, det3]; ring; done)
      | (right; simp only [tripleProduct, cross, P3.sub, P3.add, det3]; ring; done)
  have e3 : tet6 (o.add a) ((o.add a).add b) (o.add b) (((o.add a).add b).add c) = |det3 a b c| := by
    refine abs_eq_abs.2 ?_
    first
      | (left; simp only [tripleProduct, cross, P3.sub, P3.add, det3]; ring; done)
      | (right; simp only [tripleProduct, cross, P3.sub, P3.add, det3]; ring; done)
  have e4 : tet6 (o.add b) (o.add c) (((o.add a).add b).add c) ((o.add b).add c) = |det3 a b c| := by
    refine abs_eq_abs.2 ?_
    first
      | (left; simp only [tripleProduct, cross, P3.sub, P3.add, det3]; ring; done)
      | (right; simp only [tripleProduct, cross, P3.sub, P3.add, det3]; ring; done)
  have e5 : tet6 (o.add a) (o.add b) (o.add c) (((o.add a).add b).add c) = |2 * det3 a b c| := by
    refine abs_eq_abs.2 ?_
    first
      | (left; simp only [tripleProduct, cross, P3.sub, P3.add, det3]; ring; done)
      | (right; simp only [tripleProduct, cross, P3.sub, P3.add, det3]; ring; done)
  rw [e1, e2, e3, e4, e5, abs_mul, abs_two]
  ring

/-- Volume of the prism over the triangle on `a`, `b`, along `c`. -/
theorem wedge_prism {pts : List (P3 K)} {cell : List ℕ} (o a b c : P3 K)
    (h : Vertices pts cell [o, o.add a, o.add b, o.add c, (o.add a).add c, (o.add b).add c]) :
    cellVolume pts [[0, 1, 2, 5], [0, 1, 4, 5], [0, 3, 4, 5]] cell = .ok (|det3 a b c| / 2) := by
  rw [wedge_volume h]
  congr 1
  have e1 : tet6 o (o.add a) (o.add b) ((o.add b).add c) = |det3 a b c| := by
    refine abs_eq_abs.2 ?_
    first
      | (left; simp only [tripleProduct, cross, P3.sub, P3.add, det3]; ring; done)
      | (right; simp only [tripleProduct, cross, P3.sub, P3.add, det3]; ring; done)
  have e2 : tet6 o (o.add a) ((o.add a).add c) ((o.add b).add c) = |det3 a b c| := by
    refine abs_eq_abs.2 ?_
    first
      | (left; simp only [tripleProduct, cross, P3.sub, P3.add, det3]; ring; done)
      | (right; simp only [tripleProduct, cross, P3.sub, P3.add, det3]; ring; done)
  have e3 : tet6 o (o.add c) ((o.add a).add c) ((o.add b).add c) = |det3 a b c| := by
    refine abs_eq_abs.2 ?_
    first
      | (left; simp only [tripleProduct, cross, P3.sub, P3.add, det3]; ring; done)
      | (right; simp only [tripleProduct, cross, P3.sub, P3.add, det3]; ring; done)
  rw [e1, e2, e3]
  ring

/-- Volume of the pyramid over the parallelogram on `a`, `b` with apex `o + c`. -/
theorem pyramid_apex {pts : List (P3 K)} {cell : List ℕ} (o a b c : P3 K)
    (h : Vertices pts cell [o, o.add a, (o.add a).add b, o.add b, o.add c]) :
    cellVolume pts [[0, 1, 3, 4], [1, 2, 3, 4]] cell = .ok (|det3 a b c| / 3) := by
  rw [pyramid_volume h]
  congr 1
  have e1 : tet6 o (o.add a) (o.add b) (o.add c) = |det3 a b c| := by
    refine abs_eq_abs.2 ?_
    first
      | (left; simp only [tripleProduct, cross, P3.sub, P3.add, det3]; ring; done)
      | (right; simp only [tripleProduct, cross, P3.sub, P3.add, det3]; ring; done)
  have e2 : tet6 (o.add a) ((o.add a).add b) (o.add b) (o.add c) = |det3 a b c| := by
    refine abs_eq_abs.2 ?_
    first
      | (left; simp only [tripleProduct, cross, P3.sub, P3.add, det3]; ring; done)
      | (right; simp only [tripleProduct, cross, P3.sub, P3.add, det3]; ring; done)
  rw [e1, e2]
  ring

theorem tetra_det {pts : List (P3 K)} {cell : List ℕ} (o a b c : P3 K)
    (h : Vertices pts cell [o, o.add a, o.add b, o.add c]) :
    cellVolume pts [[0, 1, 2, 3]] cell = .ok (|det3 a b c| / 6) := by
  rw [tetra_volume h, add_zero]
  congr 2
  refine abs_eq_abs.2 (.inl ?_)
  simp only [tripleProduct, cross, P3.sub, P3.add, det3]; ring

end

section
variable {K : Type} [Field K]

theorem plane_succ (d : List K) (i : ℕ) (x : K) (h : d[i]? = some x) :
    plane d (i + 1) = plane d i + x := by
  unfold plane
  rw [List.take_add_one, h, List.sum_append]
  simp

theorem sum_flatMap' {α : Type} (l : List α) (f : α → List K) :
    (l.flatMap f).sum = (l.map fun x => (f x).sum).sum := by
  induction l with
  | nil => rfl
  | cons a l ih => rw [List.flatMap_cons, List.sum_append, ih, List.map_cons, List.sum_cons]

theorem sum_listing (layer : Bool) (nx ny nz : ℕ) (gx gy gz : ℕ → K) :
    ((listing layer nx ny nz).map fun v => gx v.1 * gy v.2.1 * gz v.2.2).sum =
      ((List.range nx).map gx).sum * ((List.range ny).map gy).sum * ((List.range nz).map gz).sum := by
  cases layer
  · simp only [listing, Bool.false_eq_true, if_false, List.map_flatMap, List.map_map, Function.comp_def,
      sum_flatMap', List.sum_map_mul_left, List.sum_map_mul_right, List.map_reverse, List.sum_reverse]
  · simp only [listing, if_true, List.map_flatMap, List.map_map, Function.comp_def,
      sum_flatMap', List.sum_map_mul_left, List.sum_map_mul_right, List.map_reverse, List.sum_reverse]

theorem map_range_getD (d : List K) : (List.range d.length).map (fun i => d.getD i 0) = d := by
  refine List.ext_getElem (by simp) fun i h1 h2 => ?_
  simp [h2]

/-! ## Cylindrical grids -/

theorem getD_get (d : List K) (i : ℕ) (x : K) (h : d[i]? = some x) : d.getD i 0 = x := by
  rw [List.getD_eq_getElem?_getD, h]; rfl

theorem tile_listing {nr : ℕ} (a : List K) (nz : ℕ) (h : a.length = nr) :
    tile a nz = (listing true nr 1 nz).map fun v => a.getD v.1 0 := by
  have e : (List.range nr).map (fun i => a.getD i 0) = a := by
    rw [← h]; exact map_range_getD a
  simp only [listing, if_true, List.map_flatMap, List.range_one, List.flatMap_cons, List.flatMap_nil,
    List.append_nil, List.map_map, Function.comp_def, e, tile]
  rw [List.flatMap_def]
  congr 1
  rw [List.map_const']
  simp

theorem heights_listing {nr : ℕ} (dz : List K) :
    (dz.reverse.flatMap fun h => List.replicate nr h) =
      (listing true nr 1 dz.length).map fun v => dz.getD v.2.2 0 := by
  simp only [listing, if_true, List.map_flatMap, List.range_one, List.flatMap_cons, List.flatMap_nil,
    List.append_nil, List.map_map, Function.comp_def]
  conv_lhs => rw [← map_range_getD dz, ← List.map_reverse, List.flatMap_map]
  congr 1
  funext k
  rw [List.map_const', List.length_range]

theorem range_reverse (n : ℕ) : (List.range n).reverse = (List.range n).map fun i => n - 1 - i := by
  refine List.ext_getElem (by simp) fun i h1 h2 => ?_
  simp

theorem ravelF_listing {β : Type} (nr nz : ℕ) (g : ℕ × ℕ × ℕ → β) :
    ravelF nz nr ((listing true nr 1 nz).map g) = .ok ((listing false nr 1 nz).map g) := by
  unfold ravelF
  have h : ∀ v ∈ grid2 .F (List.range nz) (List.range nr),
      (match ((listing true nr 1 nz).map g)[v.1 * nr + v.2]? with
        | some a => (.ok a : Except PyErr β)
        | none => .error .valueError) = .ok (g (v.2, 0, nz - 1 - v.1)) := by
    rintro ⟨i, j⟩ hv
    obtain ⟨hi, hj⟩ := mem_grid2 hv
    have : (listing true nr 1 nz)[i * nr + j]? = some (j, 0, nz - 1 - i) := by
      simp only [listing, if_true, List.range_one, List.flatMap_cons, List.flatMap_nil, List.append_nil]
      rw [flatMap_get (n := nr) (x := nz - 1 - i) (by simp) hj]
      · simp [hj]
      · rw [range_reverse, List.getElem?_map, List.getElem?_range hi]; rfl
    simp only [List.getElem?_map, this, Option.map_some]
  refine (mapM_eq_map h).trans ?_
  congr 1
  simp only [grid2, listing, Bool.false_eq_true, if_false, List.range_one, List.flatMap_cons,
    List.flatMap_nil, List.append_nil, List.map_flatMap, List.map_map, Function.comp_def, range_reverse]

theorem rings_get {dr : List K} {r0 : K} {rest : List K} (h : (cumsum dr).map (· ^ 2) = r0 :: rest) :
    (r0 :: List.zipWith (· - ·) rest (r0 :: rest)).length = dr.length ∧
      ∀ i < dr.length, (r0 :: List.zipWith (· - ·) rest (r0 :: rest)).getD i 0 =
        plane dr (i + 1) ^ 2 - plane dr i ^ 2 := by
  have hl : rest.length + 1 = dr.length := by
    have := congrArg List.length h
    rw [List.length_map, cumsum_length, List.length_cons] at this
    omega
  have hg : ∀ i < dr.length, (r0 :: rest)[i]? = some (plane dr (i + 1) ^ 2) := by
    intro i hi
    rw [← h, List.getElem?_map, cumsum_get dr i hi]
    rfl
  refine ⟨by simp; omega, fun i hi => getD_get _ _ _ ?_⟩
  cases i with
  | zero =>
    have := hg 0 hi
    rw [List.getElem?_cons_zero] at this ⊢
    rw [this]
    simp [plane]
  | succ i =>
    rw [List.getElem?_cons_succ, List.getElem?_zipWith, hg i (by omega)]
    have := hg (i + 1) hi
    rw [List.getElem?_cons_succ] at this
    rw [this]

theorem sum_telescope (f : ℕ → K) (n : ℕ) :
    ((List.range n).map fun i => f (i + 1) - f i).sum = f n - f 0 := by
  induction n with
  | zero => simp
  | succ n ih =>
    rw [List.range_succ, List.map_append, List.sum_append, ih]
    simp

end

end Verif.Mesh
