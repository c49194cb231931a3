import Verif.Spec.OtherSide
import Verif.Lemmas.Reorder
import Mathlib.Data.List.Permutation

/-!
# Lemmas: connections seen from the other side (C106)
-/

namespace Verif.Mesh
open Verif.Py Verif.Model Verif.Spec

/-- The opposite vector. -/
def opposite (n : P3 ℝ) : P3 ℝ := ⟨-n.x, -n.y, -n.z⟩

theorem perm_three {α : Type} {x y z : α} {l : List α} (h : l.Perm [x, y, z]) :
    l = [x, y, z] ∨ l = [y, x, z] ∨ l = [y, z, x] ∨ l = [x, z, y] ∨ l = [z, x, y] ∨ l = [z, y, x] := by
  have := List.mem_permutations'.2 h
  simp only [List.permutations', List.permutations'Aux, List.flatMap_cons, List.flatMap_nil, List.map_cons,
    List.map_nil, List.append_nil, List.cons_append, List.nil_append, List.mem_cons, List.not_mem_nil, or_false] at this
  tauto

/-- The vector that is perpendicular to a triangle. -/
noncomputable def perpendicular (p q r : P3 ℝ) : P3 ℝ := cross (q.sub p) (r.sub p)

theorem perpendicular_other (p q r : P3 ℝ) :
    perpendicular q p r = opposite (perpendicular p q r) ∧ perpendicular q r p = perpendicular p q r ∧
      perpendicular p r q = opposite (perpendicular p q r) ∧ perpendicular r p q = perpendicular p q r ∧
      perpendicular r q p = opposite (perpendicular p q r) ∧
      dot (q.sub p) (perpendicular p q r) = 0 ∧ dot (r.sub p) (perpendicular p q r) = 0 := by
  unfold perpendicular opposite cross P3.sub dot
  refine ⟨?_, ?_, ?_, ?_, ?_, ?_, ?_⟩
  · ext <;> simp only <;> ring
  · ext <;> simp only <;> ring
  · ext <;> simp only <;> ring
  · ext <;> simp only <;> ring
  · ext <;> simp only <;> ring
  · simp only; ring
  · simp only; ring

theorem norm_opposite (n : P3 ℝ) : norm3 (opposite n) = norm3 n := by
  unfold norm3
  congr 1
  unfold dot opposite
  simp only
  ring

theorem dot_opposite (p n : P3 ℝ) : dot p (opposite n) = -dot p n := by
  unfold dot opposite
  simp only
  ring

theorem scale_opposite (k : ℝ) (n : P3 ℝ) : scale k (opposite n) = opposite (scale k n) := by
  unfold scale opposite
  simp only
  ext <;> simp only <;> ring

theorem dot_scale (k : ℝ) (p n : P3 ℝ) : dot p (scale k n) = dot p n * k := by
  unfold dot scale
  simp only
  ring

theorem dot_sub (c p q n : P3 ℝ) : dot (c.sub q) n = dot (c.sub p) n - dot (q.sub p) n := by
  unfold dot P3.sub
  simp only
  ring

/-- Two triangles with the same corners. -/
theorem triangle_other {pts : List (P3 ℝ)} {f g : List ℕ} (hfg : f.Perm g) (h3 : f.length = 3) {n : P3 ℝ} {A : ℝ}
    (hn : unitNormal pts f = .ok n) (hA : faceArea pts f = .ok A) {i : ℕ} (hi : f[0]? = some i) {p : P3 ℝ}
    (hp : pts[i]? = some p) :
    ∃ n' j p', unitNormal pts g = .ok n' ∧ faceArea pts g = .ok A ∧ g[0]? = some j ∧ pts[j]? = some p' ∧
      (n' = n ∨ n' = opposite n) ∧ dot (p'.sub p) n = 0 := by
  match f, h3 with
  | [x, y, z], _ =>
    unfold unitNormal at hn
    obtain ⟨N, h1, h2⟩ := bind_eq_ok.1 hn
    cases h2
    unfold faceArea at hA
    rw [h1] at hA
    simp only [ok_bind, List.length_cons, List.length_nil] at hA
    rw [if_neg (by omega)] at hA
    cases hA
    obtain ⟨P, Q, R, hP, hQ, hR, rfl⟩ := (triangleNormal_three rfl).1 h1
    cases hi
    rw [hP] at hp
    obtain rfl : P = p := Option.some.inj hp
    have key : ∀ (a b c : ℕ) (p' q' r' : P3 ℝ), g = [a, b, c] → pts[a]? = some p' → pts[b]? = some q' →
        pts[c]? = some r' → (perpendicular p' q' r' = perpendicular P Q R ∨
          perpendicular p' q' r' = opposite (perpendicular P Q R)) → dot (p'.sub P) (perpendicular P Q R) = 0 →
        ∃ n' j p', unitNormal pts g = .ok n' ∧ faceArea pts g = .ok (norm3 (cross (Q.sub P) (R.sub P)) * 0.5) ∧
          g[0]? = some j ∧ pts[j]? = some p' ∧
          (n' = scale (1 / norm3 (cross (Q.sub P) (R.sub P))) (cross (Q.sub P) (R.sub P)) ∨
            n' = opposite (scale (1 / norm3 (cross (Q.sub P) (R.sub P))) (cross (Q.sub P) (R.sub P)))) ∧
          dot (p'.sub P) (scale (1 / norm3 (cross (Q.sub P) (R.sub P))) (cross (Q.sub P) (R.sub P))) = 0 := by
      rintro a b c p' q' r' rfl ha hb hc hpm h0
      have ht : triangleNormal pts [0, 1, 2] [a, b, c] = .ok (perpendicular p' q' r') :=
        (triangleNormal_three rfl).2 ⟨p', q', r', ha, hb, hc, rfl⟩
      have hnorm : norm3 (perpendicular p' q' r') = norm3 (perpendicular P Q R) := by
        rcases hpm with e | e
        · rw [e]
        · rw [e, norm_opposite]
      refine ⟨scale (1 / norm3 (perpendicular p' q' r')) (perpendicular p' q' r'), a, p', ?_, ?_, rfl, ha, ?_, ?_⟩
      · unfold unitNormal
        rw [ht]
        rfl
      · unfold faceArea
        rw [ht]
        simp only [ok_bind, List.length_cons, List.length_nil]
        rw [if_neg (by omega), hnorm]
        rfl
      · rw [hnorm]
        rcases hpm with e | e
        · left
          rw [e]
          rfl
        · right
          rw [e, scale_opposite]
          rfl
      · rw [dot_scale]
        show dot (p'.sub P) (perpendicular P Q R) * _ = 0
        rw [h0, zero_mul]
    obtain ⟨e1, e2, e3, e4, e5, e6, e7⟩ := perpendicular_other P Q R
    have e0 : dot (P.sub P) (perpendicular P Q R) = 0 := by
      unfold dot P3.sub
      simp only
      ring
    rcases perm_three hfg.symm with h | h | h | h | h | h
    · exact key _ _ _ P Q R h hP hQ hR (.inl rfl) e0
    · exact key _ _ _ Q P R h hQ hP hR (.inr e1) e6
    · exact key _ _ _ Q R P h hQ hR hP (.inl e2) e6
    · exact key _ _ _ P R Q h hP hR hQ (.inr e3) e0
    · exact key _ _ _ R P Q h hR hP hQ (.inl e4) e7
    · exact key _ _ _ R Q P h hR hQ hP (.inr e5) e7

/-- The same connection from the other side. -/
structure Interface.Turned (f g : Interface) : Prop where
  c1 : g.c1 = f.c2
  c2 : g.c2 = f.c1
  bound1 : g.bound1 = f.bound2
  bound2 : g.bound2 = f.bound1
  area : g.area = f.area
  normal : g.normal = f.normal ∨ g.normal = opposite f.normal
  point : dot (g.point.sub f.point) f.normal = 0

variable {f g : Interface}

theorem line_turned (h : f.Turned g) : g.line = opposite f.line := by
  unfold Interface.line
  rw [h.c1, h.c2]
  unfold P3.sub opposite
  ext <;> simp only <;> ring

theorem isot_turned (h : f.Turned g) : isot g.line = isot f.line := by
  rw [line_turned h]
  unfold isot opposite
  simp only [ne_eq, neg_eq_zero]

theorem angle_turned (h : f.Turned g) : angle g.line = -angle f.line := by
  rw [line_turned h]
  unfold angle
  rw [norm_opposite]
  unfold dot opposite
  simp only
  ring

theorem pointToPlane_turned (h : f.Turned g) (c : P3 ℝ) (b : Bool) :
    pointToPlane c g.point g.normal b = pointToPlane c f.point f.normal b := by
  unfold pointToPlane
  split
  · rfl
  · have e : dot (c.sub g.point) f.normal = dot (c.sub f.point) f.normal := by
      rw [dot_sub c f.point g.point, h.point, sub_zero]
    rcases h.normal with hn | hn
    · rw [hn, e]
    · rw [hn, dot_opposite, abs_neg, e]

theorem meets_turned (h : f.Turned g) (hd : dot f.line f.normal ≠ 0) :
    lineMeetsPlane g.c1 g.line g.point g.normal = lineMeetsPlane f.c1 f.line f.point f.normal := by
  have ht : dot (g.point.sub g.c1) g.normal / dot g.line g.normal =
      1 - dot (f.point.sub f.c1) f.normal / dot f.line f.normal := by
    have e1 : dot (g.point.sub f.c2) f.normal = dot (f.point.sub f.c1) f.normal - dot f.line f.normal := by
      have := h.point
      unfold Interface.line
      unfold dot P3.sub at *
      simp only at *
      linarith
    have e2 : dot (opposite f.line) f.normal = -dot f.line f.normal := by
      unfold dot opposite
      simp only
      ring
    rw [h.c1, line_turned h]
    rcases h.normal with hn | hn
    · rw [hn, e1, e2]
      field_simp
      ring
    · rw [hn, dot_opposite, dot_opposite, e1, e2]
      field_simp
      ring
  unfold lineMeetsPlane
  rw [ht, line_turned h, h.c1]
  generalize dot (f.point.sub f.c1) f.normal / dot f.line f.normal = t
  unfold P3.plus scale opposite Interface.line P3.sub
  ext <;> simp only <;> ring

theorem distances_turned (h : f.Turned g) (opt : NodalDistance) (hd : opt = .line → dot f.line f.normal ≠ 0) :
    nodalDistances opt g = ((nodalDistances opt f).2, (nodalDistances opt f).1) := by
  cases opt with
  | line =>
    unfold nodalDistances
    simp only
    rw [meets_turned h (hd rfl), h.c1, h.c2, h.bound1, h.bound2]
  | orthogonal =>
    unfold nodalDistances
    simp only
    rw [pointToPlane_turned h, pointToPlane_turned h, h.c1, h.c2, h.bound1, h.bound2]

/-- The second face has the area of the first one, the same direction or the opposite one, and its
first point is in the plane of the first face. -/
def SameSide (pts : List (P3 ℝ)) (u w : List ℕ) : Prop :=
  ∀ n A i p, unitNormal pts u = .ok n → faceArea pts u = .ok A → u[0]? = some i → pts[i]? = some p →
    ∃ n' j p', unitNormal pts w = .ok n' ∧ faceArea pts w = .ok A ∧ w[0]? = some j ∧ pts[j]? = some p' ∧
      (n' = n ∨ n' = opposite n) ∧ dot (p'.sub p) n = 0

theorem sameSide_triangle {pts : List (P3 ℝ)} {u w : List ℕ} (h : u.Perm w) (h3 : u.length = 3) : SameSide pts u w :=
  fun _ _ _ _ hn hA hi hp => triangle_other h h3 hn hA hi hp

theorem interfaceOf_side {cells : List CellBlock} {pts nodes : List (P3 ℝ)} {fs : List (List (List ℕ))}
    (hf : faces cells = .ok fs) {ns : List (List (P3 ℝ))} (hn : faceNormals pts fs = .ok ns) {as : List (List ℝ)}
    (ha : faceAreas pts fs = .ok as) {bs : List Bool} {i a j b : ℕ} {u w : List ℕ} (hu : FaceAt fs i a u)
    (hw : FaceAt fs j b w) (hside : SameSide pts u w)
    (hi : interfaceOf pts nodes fs ns as bs (i, j, a) = .ok f) :
    ∃ g, interfaceOf pts nodes fs ns as bs (j, i, b) = .ok g ∧ f.Turned g := by
  have hl := fun i a f hfa => (faces_bounds hf i a f hfa).2
  have ht := trianglesFirst_faces hf
  have en := mapM_eq_ok ((faceNormals_loop ht hl).1 hn).2
  have ea := mapM_eq_ok ((faceAreas_loop ht hl).1 ha).2
  have at_ok : ∀ {α : Type} {l : List α} {k : ℕ} {x : α}, itemAt l k = .ok x → l[k]? = some x := by
    intro α l k x h
    unfold itemAt at h
    cases hk : l[k]? with
    | none => rw [hk] at h; cases h
    | some y => rw [hk] at h; cases h; rfl
  obtain ⟨urow, u1, u2⟩ := hu
  obtain ⟨wrow, w1, w2⟩ := hw
  unfold interfaceOf at hi
  obtain ⟨c1, h1, hi⟩ := bind_eq_ok.1 hi
  obtain ⟨c2, h2, hi⟩ := bind_eq_ok.1 hi
  obtain ⟨row, h4, hi⟩ := bind_eq_ok.1 hi
  obtain ⟨face, h5, hi⟩ := bind_eq_ok.1 hi
  obtain ⟨v, h6, hi⟩ := bind_eq_ok.1 hi
  obtain ⟨p, h7, hi⟩ := bind_eq_ok.1 hi
  obtain ⟨nr, h8, hi⟩ := bind_eq_ok.1 hi
  obtain ⟨n, h9, hi⟩ := bind_eq_ok.1 hi
  obtain ⟨ar, h10, hi⟩ := bind_eq_ok.1 hi
  obtain ⟨A, h11, hi⟩ := bind_eq_ok.1 hi
  obtain ⟨b1, h12, hi⟩ := bind_eq_ok.1 hi
  obtain ⟨b2, h13, hi⟩ := bind_eq_ok.1 hi
  cases hi
  replace h4 := at_ok h4
  rw [u1] at h4
  cases h4
  replace h5 := at_ok h5
  rw [u2] at h5
  cases h5
  obtain ⟨nr', n1, n2⟩ := forall₂_some en u1
  rw [at_ok h8] at n1
  cases n1
  obtain ⟨n', n3, n4⟩ := forall₂_some (mapM_eq_ok n2) u2
  rw [at_ok h9] at n3
  cases n3
  obtain ⟨ar', a1, a2⟩ := forall₂_some ea u1
  rw [at_ok h10] at a1
  cases a1
  obtain ⟨A', a3, a4⟩ := forall₂_some (mapM_eq_ok a2) u2
  rw [at_ok h11] at a3
  cases a3
  obtain ⟨m, k, q, t1, t2, t3, t4, t5, t6⟩ := hside _ _ _ _ n4 a4 (at_ok h6) (at_ok h7)
  obtain ⟨mr, m1, m2⟩ := forall₂_some en w1
  obtain ⟨m', m3, m4⟩ := forall₂_some (mapM_eq_ok m2) w2
  rw [t1] at m4
  cases m4
  obtain ⟨br, r1, r2⟩ := forall₂_some ea w1
  obtain ⟨B, r3, r4⟩ := forall₂_some (mapM_eq_ok r2) w2
  rw [t2] at r4
  cases r4
  refine ⟨⟨c2, c1, q, m, A, b2, b1⟩, ?_, ⟨rfl, rfl, rfl, rfl, rfl, t5, t6⟩⟩
  unfold interfaceOf itemAt
  simp only [at_ok h1, at_ok h2, w1, w2, t3, t4, m1, m3, r1, r3, at_ok h12, at_ok h13, ok_bind]

/-! ### Parallelograms -/

theorem perpendicular_parallelogram (p q r : P3 ℝ) :
    let s : P3 ℝ := ⟨p.x + r.x - q.x, p.y + r.y - q.y, p.z + r.z - q.z⟩
    let N := perpendicular p q r
    (perpendicular p r s = N ∧ perpendicular q r s = N ∧ perpendicular q s p = N ∧
      perpendicular r s p = N ∧ perpendicular r p q = N ∧ perpendicular s p q = N ∧ perpendicular s q r = N) ∧
    (perpendicular s r q = opposite N ∧ perpendicular s q p = opposite N ∧ perpendicular r q p = opposite N ∧
      perpendicular r p s = opposite N ∧ perpendicular q p s = opposite N ∧ perpendicular q s r = opposite N ∧
      perpendicular p s r = opposite N ∧ perpendicular p r q = opposite N) ∧
    dot (p.sub p) N = 0 ∧ dot (q.sub p) N = 0 ∧ dot (r.sub p) N = 0 ∧ dot (s.sub p) N = 0 := by
  intro s N
  simp only [s, N]
  unfold perpendicular opposite cross P3.sub dot
  refine ⟨⟨?_, ?_, ?_, ?_, ?_, ?_, ?_⟩, ⟨?_, ?_, ?_, ?_, ?_, ?_, ?_, ?_⟩, ?_, ?_, ?_, ?_⟩
  iterate 15 (· ext <;> simp only <;> ring)
  iterate 4 (· simp only; ring)

theorem rotate_four {α : Type} (a b c d : α) (k : ℕ) :
    [a, b, c, d].rotate k = [a, b, c, d] ∨ [a, b, c, d].rotate k = [b, c, d, a] ∨
      [a, b, c, d].rotate k = [c, d, a, b] ∨ [a, b, c, d].rotate k = [d, a, b, c] := by
  rw [← List.rotate_mod]
  have h : k % [a, b, c, d].length < 4 := Nat.mod_lt _ (by simp)
  generalize k % [a, b, c, d].length = j at h
  have : j = 0 ∨ j = 1 ∨ j = 2 ∨ j = 3 := by omega
  rcases this with rfl | rfl | rfl | rfl
  · exact .inl rfl
  · exact .inr (.inl rfl)
  · exact .inr (.inr (.inl rfl))
  · exact .inr (.inr (.inr rfl))

theorem faceArea_four {pts : List (P3 ℝ)} {a b c d : ℕ} {p q r s : P3 ℝ} (ha : pts[a]? = some p)
    (hb : pts[b]? = some q) (hc : pts[c]? = some r) (hd : pts[d]? = some s) :
    faceArea pts [a, b, c, d] = .ok ((norm3 (perpendicular p q r) + norm3 (perpendicular p r s)) * 0.5) ∧
      unitNormal pts [a, b, c, d] =
        .ok (scale (1 / norm3 (perpendicular p q r)) (perpendicular p q r)) := by
  have h1 : triangleNormal pts [0, 1, 2] [a, b, c, d] = .ok (perpendicular p q r) :=
    (triangleNormal_three rfl).2 ⟨p, q, r, ha, hb, hc, rfl⟩
  have h2 : triangleNormal pts [0, 2, 3] [a, b, c, d] = .ok (perpendicular p r s) :=
    (triangleNormal_three rfl).2 ⟨p, r, s, ha, hc, hd, rfl⟩
  unfold faceArea unitNormal
  rw [h1, h2]
  exact ⟨rfl, rfl⟩

theorem sameSide_parallelogram {pts : List (P3 ℝ)} {u w : List ℕ} (h : SameLoop u w) (hp : IsParallelogram pts u) :
    SameSide pts u w := by
  obtain ⟨a, b, c, d, p, q, r, s, rfl, ha, hb, hc, hd, ex, ey, ez⟩ := hp
  have hs : s = ⟨p.x + r.x - q.x, p.y + r.y - q.y, p.z + r.z - q.z⟩ := by
    ext
    · show s.x = _
      linarith
    · show s.y = _
      linarith
    · show s.z = _
      linarith
  have hN := perpendicular_parallelogram p q r
  simp only [← hs] at hN
  obtain ⟨⟨n1, n2, n3, n4, n5, n6, n7⟩, ⟨o1, o2, o3, o4, o5, o6, o7, o8⟩, z1, z2, z3, z4⟩ := hN
  intro n A i p0 hn hA hi h0
  obtain ⟨f1, f2⟩ := faceArea_four ha hb hc hd
  rw [f1] at hA
  rw [f2] at hn
  cases hn
  cases hA
  cases hi
  rw [ha] at h0
  obtain rfl : p = p0 := Option.some.inj h0
  have key : ∀ (a' b' c' d' : ℕ) (p' q' r' s' : P3 ℝ), w = [a', b', c', d'] → pts[a']? = some p' →
      pts[b']? = some q' → pts[c']? = some r' → pts[d']? = some s' →
      (perpendicular p' q' r' = perpendicular p q r ∨ perpendicular p' q' r' = opposite (perpendicular p q r)) →
      (perpendicular p' r' s' = perpendicular p q r ∨ perpendicular p' r' s' = opposite (perpendicular p q r)) →
      dot (p'.sub p) (perpendicular p q r) = 0 →
      ∃ n' j p', unitNormal pts w = .ok n' ∧
        faceArea pts w = .ok ((norm3 (perpendicular p q r) + norm3 (perpendicular p r s)) * 0.5) ∧
        w[0]? = some j ∧ pts[j]? = some p' ∧
        (n' = scale (1 / norm3 (perpendicular p q r)) (perpendicular p q r) ∨
          n' = opposite (scale (1 / norm3 (perpendicular p q r)) (perpendicular p q r))) ∧
        dot (p'.sub p) (scale (1 / norm3 (perpendicular p q r)) (perpendicular p q r)) = 0 := by
    rintro a' b' c' d' p' q' r' s' rfl ha' hb' hc' hd' e1 e2 e3
    have m1 : norm3 (perpendicular p' q' r') = norm3 (perpendicular p q r) := by
      rcases e1 with e | e
      · rw [e]
      · rw [e, norm_opposite]
    have m2 : norm3 (perpendicular p' r' s') = norm3 (perpendicular p q r) := by
      rcases e2 with e | e
      · rw [e]
      · rw [e, norm_opposite]
    obtain ⟨g1, g2⟩ := faceArea_four ha' hb' hc' hd'
    refine ⟨_, a', p', g2, ?_, rfl, ha', ?_, ?_⟩
    · rw [g1, m1, m2, n1]
    · rw [m1]
      rcases e1 with e | e
      · left
        rw [e]
      · right
        rw [e, scale_opposite]
    · rw [dot_scale, e3, zero_mul]
  obtain ⟨k, hk | hk⟩ := h
  · rcases rotate_four a b c d k with e | e | e | e
    · exact key _ _ _ _ p q r s (hk.trans e) ha hb hc hd (.inl rfl) (.inl n1) z1
    · exact key _ _ _ _ q r s p (hk.trans e) hb hc hd ha (.inl n2) (.inl n3) z2
    · exact key _ _ _ _ r s p q (hk.trans e) hc hd ha hb (.inl n4) (.inl n5) z3
    · exact key _ _ _ _ s p q r (hk.trans e) hd ha hb hc (.inl n6) (.inl n7) z4
  · have hr : [a, b, c, d].reverse = [d, c, b, a] := rfl
    rw [hr] at hk
    rcases rotate_four d c b a k with e | e | e | e
    · exact key _ _ _ _ s r q p (hk.trans e) hd hc hb ha (.inr o1) (.inr o2) z4
    · exact key _ _ _ _ r q p s (hk.trans e) hc hb ha hd (.inr o3) (.inr o4) z3
    · exact key _ _ _ _ q p s r (hk.trans e) hb ha hd hc (.inr o5) (.inr o6) z2
    · exact key _ _ _ _ p s r q (hk.trans e) ha hd hc hb (.inr o7) (.inr o8) z1

end Verif.Mesh
