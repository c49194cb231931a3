import Verif.Model.Geometry
import Verif.Spec.Geometry
import Verif.Lemmas.Connections
import Mathlib.Tactic.Ring
import Mathlib.Tactic.Linarith
import Mathlib.Tactic.FieldSimp
import Mathlib.Tactic.LinearCombination

/-! Helper lemmas: faces and connections in space. -/

namespace Verif.Mesh
open Verif.Py Verif.Model Verif.Spec

/-! ### gather -/

theorem gather_get {α : Type} (n : ℕ) (l : List (ℕ × α)) (i : ℕ) :
    (gather n l)[i]? = if i < n then some ((l.filter (·.1 = i)).map (·.2)) else none := by
  unfold gather
  have key : ∀ (l : List (ℕ × α)) (out : List (List α)),
      (l.foldl (fun out e => out.modify e.1 (· ++ [e.2])) out)[i]? =
        (out[i]?).map (· ++ (l.filter (·.1 = i)).map (·.2)) := by
    intro l
    induction l with
    | nil => intro out; simp
    | cons e l ih =>
      intro out
      rw [List.foldl_cons, ih, List.getElem?_modify]
      by_cases he : e.1 = i
      · rw [List.filter_cons_of_pos (by simpa using he)]
        cases out[i]? <;> simp [he]
      · rw [List.filter_cons_of_neg (by simpa using he)]
        cases out[i]? <;> simp [he]
  rw [key, List.getElem?_replicate]
  split <;> simp

theorem gather_length {α : Type} (n : ℕ) (l : List (ℕ × α)) : (gather n l).length = n := by
  unfold gather
  have key : ∀ (l : List (ℕ × α)) (out : List (List α)),
      (l.foldl (fun out e => out.modify e.1 (· ++ [e.2])) out).length = out.length := by
    intro l
    induction l with
    | nil => intro out; rfl
    | cons e l ih => intro out; rw [List.foldl_cons, ih, List.length_modify]
  rw [key, List.length_replicate]

/-! ### faces in order -/

/-- Triangles come before quadrangles in the faces of every cell. -/
def TrianglesFirst (fs : List (List (List ℕ))) : Prop :=
  ∀ row ∈ fs, row = row.filter (fun f => f.length = 3) ++ row.filter (fun f => f.length = 4)

theorem getFaces_filter (n : ℕ) (fs : List (List (List ℕ))) (i : ℕ) :
    ((getFaces n fs).filter (fun o => o.2.1 = i)).map (·.1) =
      ((fs[i]?).getD []).filter (fun f => f.length = n) := by
  unfold getFaces
  have key : ∀ (fs : List (List (List ℕ))) (k : ℕ),
      (((fs.zipIdx k).flatMap fun r =>
        (r.1.zipIdx.filter fun f => f.1.length = n).map fun f => (f.1, r.2, f.2)).filter
          (fun o => o.2.1 = k + i)).map (·.1) = ((fs[i]?).getD []).filter (fun f => f.length = n) := by
    induction i with
    | zero =>
      intro fs k
      cases fs with
      | nil => rfl
      | cons row fs =>
        rw [List.zipIdx_cons, List.flatMap_cons, List.filter_append, List.map_append]
        have h1 : ((row.zipIdx.filter fun f => f.1.length = n).map fun f => (f.1, k, f.2)).filter
            (fun o => o.2.1 = k + 0) =
            (row.zipIdx.filter fun f => f.1.length = n).map fun f => (f.1, k, f.2) := by
          rw [List.filter_eq_self]
          intro o ho
          obtain ⟨f, -, rfl⟩ := List.mem_map.1 ho
          simp
        have h2 : (((fs.zipIdx (k + 1)).flatMap fun r =>
            (r.1.zipIdx.filter fun f => f.1.length = n).map fun f => (f.1, r.2, f.2)).filter
              (fun o => o.2.1 = k + 0)) = [] := by
          rw [List.filter_eq_nil_iff]
          intro o ho
          obtain ⟨r, hr, ho⟩ := List.mem_flatMap.1 ho
          obtain ⟨f, -, rfl⟩ := List.mem_map.1 ho
          have := List.le_snd_of_mem_zipIdx hr
          simp only [decide_eq_true_eq]
          omega
        rw [h1, h2, List.map_nil, List.append_nil, List.map_map]
        have h3 : ((fun x : List ℕ × ℕ × ℕ => x.1) ∘ fun f : List ℕ × ℕ => (f.1, k, f.2)) = Prod.fst := rfl
        rw [h3]
        simp only [List.getElem?_cons_zero, Option.getD_some]
        have h4 : (fun f : List ℕ × ℕ => decide (f.1.length = n)) =
            (fun f : List ℕ => decide (f.length = n)) ∘ Prod.fst := rfl
        rw [h4, ← List.filter_map, List.zipIdx_map_fst]
    | succ i ih =>
      intro fs k
      cases fs with
      | nil => rfl
      | cons row fs =>
        rw [List.zipIdx_cons, List.flatMap_cons, List.filter_append, List.map_append]
        have h1 : ((row.zipIdx.filter fun f => f.1.length = n).map fun f => (f.1, k, f.2)).filter
            (fun o => o.2.1 = k + (i + 1)) = [] := by
          rw [List.filter_eq_nil_iff]
          intro o ho
          obtain ⟨f, -, rfl⟩ := List.mem_map.1 ho
          simp
        rw [h1, List.map_nil, List.nil_append, List.getElem?_cons_succ, ← ih fs (k + 1)]
        congr 2
        funext o
        simp only [decide_eq_decide]
        omega
  have := key fs 0
  simpa using this

theorem facesInOrder_filter {fs : List (List (List ℕ))} (h : TrianglesFirst fs) (i : ℕ) :
    ((facesInOrder fs).filter (fun o => o.2.1 = i)).map (·.1) = (fs[i]?).getD [] := by
  unfold facesInOrder
  rw [List.filter_append, List.map_append, getFaces_filter, getFaces_filter]
  cases hi : fs[i]? with
  | none => rfl
  | some row => exact (h row (List.mem_of_getElem? hi)).symm

theorem trianglesFirst_faces {cells : List CellBlock} {fs : List (List (List ℕ))}
    (h : faces cells = .ok fs) : TrianglesFirst fs := by
  intro row hrow
  obtain ⟨i, hi, he⟩ := List.getElem_of_mem hrow
  have hr := faces_rows h
  rw [List.forall₂_iff_get] at hr
  obtain ⟨t, t1, t2⟩ := hr.2 i (by rw [hr.1]; exact hi) hi
  rw [show fs.get ⟨i, hi⟩ = row from he] at t2
  generalize (typedCells cells).get ⟨i, _⟩ = tc at t1 t2
  have hlen : row.map List.length = t.map List.length := by
    clear t1 he hrow
    induction t2 with
    | nil => rfl
    | cons hh _ ih =>
      rw [List.map_cons, List.map_cons, ih]
      congr 1
      exact ((mapM_eq_ok hh).length_eq).symm
  have key : ∀ (a b : ℕ) (l : List (List ℕ)),
      l.map List.length = List.replicate a 3 ++ List.replicate b 4 →
      l = l.filter (fun f => f.length = 3) ++ l.filter (fun f => f.length = 4) := by
    intro a b
    induction a with
    | zero =>
      intro l hl
      rw [List.replicate_zero, List.nil_append] at hl
      have h4 : ∀ f ∈ l, f.length = 4 := fun f hf =>
        List.eq_of_mem_replicate (hl ▸ List.mem_map_of_mem hf)
      have e1 : l.filter (fun f => f.length = 3) = [] := by
        rw [List.filter_eq_nil_iff]
        intro f hf
        simp [h4 f hf]
      have e2 : l.filter (fun f => f.length = 4) = l := by
        rw [List.filter_eq_self]
        intro f hf
        simp [h4 f hf]
      rw [e1, e2, List.nil_append]
    | succ a ih =>
      intro l hl
      rw [List.replicate_succ, List.cons_append] at hl
      cases l with
      | nil => cases hl
      | cons f l =>
        rw [List.map_cons, List.cons.injEq] at hl
        rw [List.filter_cons_of_pos (by simp [hl.1]), List.filter_cons_of_neg (by simp [hl.1]),
          List.cons_append, ← ih l hl.2]
  generalize tc.1 = ty at t1
  cases ty with
  | tetra => cases t1; exact key 4 0 row hlen
  | pyramid => cases t1; exact key 4 1 row hlen
  | wedge => cases t1; exact key 2 3 row hlen
  | hexahedron => cases t1; exact key 0 6 row hlen
  | triangle => cases t1
  | quad => cases t1
  | other s => cases t1

/-- A property computed for the faces in order and gathered for the cells belongs to the
faces of the cells. -/
theorem gather_faces {α : Type} {fs : List (List (List ℕ))} (h : TrianglesFirst fs)
    {xs : List α} {R : List ℕ → α → Prop}
    (hx : List.Forall₂ (fun (o : List ℕ × ℕ × ℕ) x => R o.1 x) (facesInOrder fs) xs) :
    List.Forall₂ (List.Forall₂ R) fs
      (gather fs.length (((facesInOrder fs).map (·.2.1)).zip xs)) := by
  rw [List.forall₂_iff_get]
  refine ⟨(gather_length _ _).symm, fun i h1 h2 => ?_⟩
  have hg := gather_get fs.length (((facesInOrder fs).map (·.2.1)).zip xs) i
  rw [if_pos h1, List.getElem?_eq_getElem (by rw [gather_length]; exact h1)] at hg
  simp only [Option.some.injEq] at hg
  rw [List.get_eq_getElem, List.get_eq_getElem, hg]
  have hf := facesInOrder_filter h i
  rw [List.getElem?_eq_getElem h1, Option.getD_some] at hf
  rw [← hf]
  clear hf hg h2
  generalize facesInOrder fs = os at hx
  induction hx with
  | nil => exact .nil
  | @cons o x os xs ho _ ih =>
    rw [List.map_cons, List.zip_cons_cons]
    by_cases hi : o.2.1 = i
    · rw [List.filter_cons_of_pos (by simpa using hi), List.filter_cons_of_pos (by simpa using hi),
        List.map_cons, List.map_cons]
      exact .cons ho ih
    · rw [List.filter_cons_of_neg (by simpa using hi), List.filter_cons_of_neg (by simpa using hi)]
      exact ih

/-! ### triangles -/

theorem rowsAt_cons {α : Type} (pts : List α) (i : ℕ) (c : List ℕ) :
    rowsAt pts (i :: c) = (match pts[i]? with
      | some p => (match rowsAt pts c with
        | .ok ps => .ok (p :: ps)
        | .error e => .error e)
      | none => .error .indexError) := by
  unfold rowsAt
  rw [List.mapM_cons]
  cases pts[i]? with
  | none => rfl
  | some p =>
    simp only
    rw [ok_bind]
    cases List.mapM (m := Except PyErr) (fun i => match pts[i]? with
      | some p => (.ok p : Except PyErr α)
      | none => .error .indexError) c <;> rfl

theorem rowsAt_nil {α : Type} (pts : List α) : rowsAt pts [] = .ok [] := rfl

theorem triangleNormal_three {pts : List (P3 ℝ)} {f islice : List ℕ} {a b c : ℕ} {v : P3 ℝ}
    (hf : rowsAt f islice = .ok [a, b, c]) :
    triangleNormal pts islice f = .ok v ↔
      ∃ p q r, pts[a]? = some p ∧ pts[b]? = some q ∧ pts[c]? = some r ∧
        v = cross (q.sub p) (r.sub p) := by
  unfold triangleNormal
  rw [hf, ok_bind, rowsAt_cons, rowsAt_cons, rowsAt_cons, rowsAt_nil]
  cases pts[a]? with
  | none => simp [bind, Except.bind]
  | some p =>
    cases pts[b]? with
    | none => simp [bind, Except.bind]
    | some q =>
      cases pts[c]? with
      | none => simp [bind, Except.bind]
      | some r => simp [bind, Except.bind, eq_comm]

theorem dot_self_nonneg (v : P3 ℝ) : 0 ≤ dot v v := by
  unfold dot; nlinarith [sq_nonneg v.x, sq_nonneg v.y, sq_nonneg v.z]

theorem norm3_nonneg (v : P3 ℝ) : 0 ≤ norm3 v := Real.sqrt_nonneg _

theorem norm3_sq (v : P3 ℝ) : norm3 v ^ 2 = dot v v := Real.sq_sqrt (dot_self_nonneg v)

theorem norm3_sub (p q : P3 ℝ) : norm3 (p.sub q) = dist3 p q := by
  unfold norm3 dist3 distSq dot P3.sub
  congr 1
  ring

theorem dist3_comm (p q : P3 ℝ) : dist3 p q = dist3 q p := by
  unfold dist3 distSq
  congr 1
  ring

theorem triangleArea (p q r : P3 ℝ) :
    IsTriangleArea p q r (norm3 (cross (q.sub p) (r.sub p)) * 0.5) := by
  refine ⟨mul_nonneg (norm3_nonneg _) (by norm_num), ?_⟩
  rw [mul_pow, norm3_sq]
  unfold dot cross P3.sub distSq
  ring

theorem dot_cross_left (a b : P3 ℝ) : dot (cross a b) a = 0 := by
  unfold dot cross; ring

theorem dot_cross_right (a b : P3 ℝ) : dot (cross a b) b = 0 := by
  unfold dot cross; ring

theorem isNormal_cross {p q r : P3 ℝ} (h : ¬ IsTriangleArea p q r 0) :
    IsNormal p q r (scale (1 / norm3 (cross (q.sub p) (r.sub p))) (cross (q.sub p) (r.sub p))) := by
  have hn : norm3 (cross (q.sub p) (r.sub p)) ≠ 0 := by
    intro h0
    have := triangleArea p q r
    rw [h0, zero_mul] at this
    exact h this
  have hs := norm3_sq (cross (q.sub p) (r.sub p))
  have h1 := dot_cross_left (q.sub p) (r.sub p)
  have h2 := dot_cross_right (q.sub p) (r.sub p)
  have h3 : ∀ n : P3 ℝ, signedVolume p q r ⟨p.x + n.x, p.y + n.y, p.z + n.z⟩ =
      dot (cross (q.sub p) (r.sub p)) n := by
    intro n
    unfold signedVolume dot cross P3.sub
    ring
  have hm : 0 ≤ norm3 (cross (q.sub p) (r.sub p)) := Real.sqrt_nonneg _
  generalize cross (q.sub p) (r.sub p) = v at *
  have h4 : signedVolume p q r ⟨p.x + (scale (1 / norm3 v) v).x, p.y + (scale (1 / norm3 v) v).y,
      p.z + (scale (1 / norm3 v) v).z⟩ = norm3 v := by
    rw [h3]
    unfold dot at hs
    unfold dot scale
    simp only
    field_simp
    linear_combination -hs
  have hpos : 0 < norm3 v := lt_of_le_of_ne hm (Ne.symm hn)
  rw [← h4] at hpos
  clear h3 h4 hm
  generalize hmm : norm3 v = m at *
  unfold IsNormal IsUnit3 distAlong
  unfold scale at hpos ⊢
  unfold dot at hs h1 h2
  unfold P3.sub at h1 h2
  simp only at h1 h2 ⊢
  refine ⟨?_, ?_, ?_, hpos⟩
  · have : (v.x * (1 / m)) ^ 2 + (v.y * (1 / m)) ^ 2 + (v.z * (1 / m)) ^ 2 =
        (v.x * v.x + v.y * v.y + v.z * v.z) / m ^ 2 := by field_simp
    rw [this, ← hs]
    field_simp
  · linear_combination (1 / m) * h1
  · linear_combination (1 / m) * h2

/-! ### faces with three or four vertices -/

/-- The distance from a face is proportional to the volume above it. -/
theorem normal_scale {p q r n : P3 ℝ} (h : IsNormal p q r n) (o : P3 ℝ) : signedVolume p q r o =
    signedVolume p q r ⟨p.x + n.x, p.y + n.y, p.z + n.z⟩ * distAlong n p o := by
  obtain ⟨h1, h2, h3, _⟩ := h
  unfold IsUnit3 at h1
  unfold distAlong at h2 h3
  unfold signedVolume distAlong
  simp only
  generalize q.x - p.x = ux at *
  generalize q.y - p.y = uy at *
  generalize q.z - p.z = uz at *
  generalize r.x - p.x = vx at *
  generalize r.y - p.y = vy at *
  generalize r.z - p.z = vz at *
  generalize o.x - p.x = wx at *
  generalize o.y - p.y = wy at *
  generalize o.z - p.z = wz at *
  have c1 : n.y * (ux * vy - uy * vx) - n.z * (uz * vx - ux * vz) = 0 := by
    linear_combination ux * h3 - vx * h2
  have c2 : n.z * (uy * vz - uz * vy) - n.x * (ux * vy - uy * vx) = 0 := by
    linear_combination uy * h3 - vy * h2
  have c3 : n.x * (uz * vx - ux * vz) - n.y * (uy * vz - uz * vy) = 0 := by
    linear_combination uz * h3 - vz * h2
  linear_combination (-(wx * (uy * vz - uz * vy) + wy * (uz * vx - ux * vz) + wz * (ux * vy - uy * vx))) * h1 +
    (wy * n.z - wz * n.y) * (-c1) + (wz * n.x - wx * n.z) * (-c2) + (wx * n.y - wy * n.x) * (-c3)

theorem face_cases {f : List ℕ} (h : f.length = 3 ∨ f.length = 4) :
    (∃ a b c, f = [a, b, c]) ∨ ∃ a b c d, f = [a, b, c, d] := by
  match f, h with
  | [a, b, c], _ => exact .inl ⟨a, b, c, rfl⟩
  | [a, b, c, d], _ => exact .inr ⟨a, b, c, d, rfl⟩
  | [], h => simp at h
  | [_], h => simp at h
  | [_, _], h => simp at h
  | _ :: _ :: _ :: _ :: _ :: _, h => simp at h

theorem faceArea_ok {pts : List (P3 ℝ)} {f : List ℕ} (hf : f.length = 3 ∨ f.length = 4) {A : ℝ}
    (h : faceArea pts f = .ok A) : ∃ ps, FaceVertices pts f ps ∧ IsArea ps A := by
  unfold faceArea at h
  obtain ⟨v, hv, h⟩ := bind_eq_ok.1 h
  rcases face_cases hf with ⟨a, b, c, rfl⟩ | ⟨a, b, c, d, rfl⟩
  · obtain ⟨p, q, r, h1, h2, h3, rfl⟩ := (triangleNormal_three (by rfl)).1 hv
    rw [if_neg (by simp)] at h
    cases h
    exact ⟨[p, q, r], .cons h1 (.cons h2 (.cons h3 .nil)), triangleArea p q r⟩
  · obtain ⟨p, q, r, h1, h2, h3, rfl⟩ := (triangleNormal_three (by rfl)).1 hv
    rw [if_pos (by rfl)] at h
    obtain ⟨w, hw, h⟩ := bind_eq_ok.1 h
    obtain ⟨p', r', s, h1', h3', h4, rfl⟩ := (triangleNormal_three (by rfl)).1 hw
    rw [h1] at h1'
    rw [h3] at h3'
    cases h1'
    cases h3'
    cases h
    exact ⟨[p, q, r, s], .cons h1 (.cons h2 (.cons h3 (.cons h4 .nil))), _, _, triangleArea p q r,
      triangleArea p r s, by ring⟩

theorem faceArea_exists {pts : List (P3 ℝ)} {f : List ℕ} (hf : f.length = 3 ∨ f.length = 4)
    (h : ∀ v ∈ f, v < pts.length) : ∃ A, faceArea pts f = .ok A := by
  unfold faceArea
  rcases face_cases hf with ⟨a, b, c, rfl⟩ | ⟨a, b, c, d, rfl⟩
  · rw [(triangleNormal_three (by rfl)).2 ⟨_, _, _, List.getElem?_eq_getElem (h a (by simp)),
      List.getElem?_eq_getElem (h b (by simp)), List.getElem?_eq_getElem (h c (by simp)), rfl⟩,
      ok_bind, if_neg (by simp)]
    exact ⟨_, rfl⟩
  · rw [(triangleNormal_three (by rfl)).2 ⟨_, _, _, List.getElem?_eq_getElem (h a (by simp)),
      List.getElem?_eq_getElem (h b (by simp)), List.getElem?_eq_getElem (h c (by simp)), rfl⟩,
      ok_bind, if_pos (by rfl),
      (triangleNormal_three (by rfl)).2 ⟨_, _, _, List.getElem?_eq_getElem (h a (by simp)),
      List.getElem?_eq_getElem (h c (by simp)), List.getElem?_eq_getElem (h d (by simp)), rfl⟩,
      ok_bind]
    exact ⟨_, rfl⟩

theorem faceNormal_ok {pts : List (P3 ℝ)} {f : List ℕ} (hf : f.length = 3 ∨ f.length = 4) {v : P3 ℝ}
    (h : triangleNormal pts [0, 1, 2] f = .ok v) :
    ∃ p q r, FaceVertices pts (f.take 3) [p, q, r] ∧
      (¬ IsTriangleArea p q r 0 → IsNormal p q r (scale (1 / norm3 v) v)) := by
  rcases face_cases hf with ⟨a, b, c, rfl⟩ | ⟨a, b, c, d, rfl⟩
  · obtain ⟨p, q, r, h1, h2, h3, rfl⟩ := (triangleNormal_three (by rfl)).1 h
    exact ⟨p, q, r, .cons h1 (.cons h2 (.cons h3 .nil)), isNormal_cross⟩
  · obtain ⟨p, q, r, h1, h2, h3, rfl⟩ := (triangleNormal_three (by rfl)).1 h
    exact ⟨p, q, r, .cons h1 (.cons h2 (.cons h3 .nil)), isNormal_cross⟩

theorem faceNormal_exists {pts : List (P3 ℝ)} {f : List ℕ} (hf : f.length = 3 ∨ f.length = 4)
    (h : ∀ v ∈ f, v < pts.length) : ∃ v, triangleNormal pts [0, 1, 2] f = .ok v := by
  rcases face_cases hf with ⟨a, b, c, rfl⟩ | ⟨a, b, c, d, rfl⟩
  · exact ⟨_, (triangleNormal_three (by rfl)).2 ⟨_, _, _, List.getElem?_eq_getElem (h a (by simp)),
      List.getElem?_eq_getElem (h b (by simp)), List.getElem?_eq_getElem (h c (by simp)), rfl⟩⟩
  · exact ⟨_, (triangleNormal_three (by rfl)).2 ⟨_, _, _, List.getElem?_eq_getElem (h a (by simp)),
      List.getElem?_eq_getElem (h b (by simp)), List.getElem?_eq_getElem (h c (by simp)), rfl⟩⟩

theorem mem_facesInOrder {fs : List (List (List ℕ))} {o : List ℕ × ℕ × ℕ}
    (h : o ∈ facesInOrder fs) : (o.1.length = 3 ∨ o.1.length = 4) ∧ ∃ row ∈ fs, o.1 ∈ row := by
  have key : ∀ n, o ∈ getFaces n fs → o.1.length = n ∧ ∃ row ∈ fs, o.1 ∈ row := by
    intro n h
    obtain ⟨r, hr, h⟩ := List.mem_flatMap.1 h
    obtain ⟨f, hf, rfl⟩ := List.mem_map.1 h
    rw [List.mem_filter, decide_eq_true_eq] at hf
    exact ⟨hf.2, r.1, (List.fst_mem_of_mem_zipIdx hr), (List.fst_mem_of_mem_zipIdx hf.1)⟩
  rcases List.mem_append.1 h with h | h
  · obtain ⟨h1, h2⟩ := key 3 h
    exact ⟨.inl h1, h2⟩
  · obtain ⟨h1, h2⟩ := key 4 h
    exact ⟨.inr h1, h2⟩

theorem facesInOrder_ne_nil {cells : List CellBlock} {fs : List (List (List ℕ))}
    (h : faces cells = .ok fs) (hne : fs ≠ []) : facesInOrder fs ≠ [] := by
  intro h0
  obtain ⟨row, fs', rfl⟩ := List.exists_cons_of_ne_nil hne
  have hf := facesInOrder_filter (trianglesFirst_faces h) 0
  rw [h0] at hf
  have hr := faces_rows h
  rw [List.forall₂_iff_get] at hr
  obtain ⟨t, t1, t2⟩ := hr.2 0 (by rw [hr.1]; simp) (by simp)
  simp only [List.filter_nil, List.map_nil, List.getElem?_cons_zero, Option.getD_some] at hf
  rw [show (row :: fs').get ⟨0, by simp⟩ = [] from hf.symm] at t2
  generalize (typedCells cells).get ⟨0, _⟩ = tc at t1 t2
  generalize tc.1 = ty at t1
  cases t2
  cases ty <;> cases t1

theorem forall₂_mem {α β : Type} {R S : α → β → Prop} {l : List α} {r : List β}
    (h : List.Forall₂ R l r) (hm : ∀ x y, x ∈ l → R x y → S x y) : List.Forall₂ S l r := by
  induction h with
  | nil => exact .nil
  | cons h1 _ ih =>
    exact .cons (hm _ _ List.mem_cons_self h1) (ih fun x y hx => hm x y (List.mem_cons_of_mem _ hx))

theorem forall₂_at {α β : Type} {R : α → β → Prop} {l : List (List α)} {r : List (List β)}
    (h : List.Forall₂ (List.Forall₂ R) l r) {i a : ℕ} {y : List β} {z : β}
    (h1 : r[i]? = some y) (h2 : y[a]? = some z) :
    ∃ row x, l[i]? = some row ∧ row[a]? = some x ∧ R x z := by
  have key : ∀ {α β : Type} {R : α → β → Prop} {l : List α} {r : List β} {i : ℕ} {y : β},
      List.Forall₂ R l r → r[i]? = some y → ∃ x, l[i]? = some x ∧ R x y := by
    intro α β R l r i y h hi
    rw [List.forall₂_iff_get] at h
    obtain ⟨hlt, he⟩ := List.getElem?_eq_some_iff.1 hi
    have hl : i < l.length := by rw [h.1]; exact hlt
    refine ⟨l[i], List.getElem?_eq_getElem hl, ?_⟩
    have := h.2 i hl hlt
    rw [List.get_eq_getElem, List.get_eq_getElem, he] at this
    exact this
  obtain ⟨row, h3, h4⟩ := key h h1
  obtain ⟨x, h5, h6⟩ := key h4 h2
  exact ⟨row, x, h3, h5, h6⟩

theorem itemAt_ok {α : Type} {l : List α} {i : ℕ} {x : α} (h : itemAt l i = .ok x) :
    l[i]? = some x := by
  unfold itemAt at h
  split at h
  · next hx => cases h; exact hx
  · cases h

theorem isTriangleArea_unique {p q r : P3 ℝ} {A B : ℝ} (hA : IsTriangleArea p q r A)
    (hB : IsTriangleArea p q r B) : A = B := by
  obtain ⟨a0, a⟩ := hA
  obtain ⟨b0, b⟩ := hB
  rw [← b] at a
  exact (sq_eq_sq₀ a0 b0).1 (by linarith)

theorem isArea_unique {ps : List (P3 ℝ)} {A B : ℝ} (hA : IsArea ps A) (hB : IsArea ps B) : A = B := by
  match ps, hA, hB with
  | [_, _, _], hA, hB => exact isTriangleArea_unique hA hB
  | [_, _, _, _], ⟨_, _, h1, h2, h3⟩, ⟨_, _, g1, g2, g3⟩ =>
    rw [h3, g3, isTriangleArea_unique h1 g1, isTriangleArea_unique h2 g2]

/-! ### connections -/

theorem dist3_pos {p q : P3 ℝ} (h : p ≠ q) : 0 < dist3 p q := by
  unfold dist3
  apply Real.sqrt_pos.2
  by_contra hc
  apply h
  unfold distSq at hc
  have hx : (p.x - q.x) ^ 2 = 0 := by nlinarith [sq_nonneg (p.x - q.x), sq_nonneg (p.y - q.y), sq_nonneg (p.z - q.z)]
  have hy : (p.y - q.y) ^ 2 = 0 := by nlinarith [sq_nonneg (p.x - q.x), sq_nonneg (p.y - q.y), sq_nonneg (p.z - q.z)]
  have hz : (p.z - q.z) ^ 2 = 0 := by nlinarith [sq_nonneg (p.x - q.x), sq_nonneg (p.y - q.y), sq_nonneg (p.z - q.z)]
  rw [sq_eq_zero_iff, sub_eq_zero] at hx hy hz
  cases p
  cases q
  simp_all

theorem lineMeetsPlane_spec (f : Interface) (h : distAlong f.normal f.c1 f.c2 ≠ 0) :
    OnPlane f.point f.normal (lineMeetsPlane f.c1 f.line f.point f.normal) ∧
    AtFraction f.c1 f.c2 (distAlong f.normal f.c1 f.point / distAlong f.normal f.c1 f.c2)
      (lineMeetsPlane f.c1 f.line f.point f.normal) := by
  have e1 : dot (f.point.sub f.c1) f.normal = distAlong f.normal f.c1 f.point := by
    unfold dot P3.sub distAlong; ring
  have e2 : dot f.line f.normal = distAlong f.normal f.c1 f.c2 := by
    unfold Interface.line dot P3.sub distAlong; ring
  unfold lineMeetsPlane
  rw [e1, e2]
  constructor
  · have : distAlong f.normal f.point (f.c1.plus (scale (distAlong f.normal f.c1 f.point /
        distAlong f.normal f.c1 f.c2) f.line)) = -distAlong f.normal f.c1 f.point +
        distAlong f.normal f.c1 f.point / distAlong f.normal f.c1 f.c2 * distAlong f.normal f.c1 f.c2 := by
      generalize distAlong f.normal f.c1 f.point / distAlong f.normal f.c1 f.c2 = t
      unfold distAlong P3.plus scale Interface.line P3.sub
      ring
    unfold OnPlane
    rw [this, div_mul_cancel₀ _ h]
    ring
  · unfold AtFraction P3.plus scale Interface.line P3.sub
    refine ⟨?_, ?_, ?_⟩ <;> ring

theorem lineMeetsPlane_unique (f : Interface) (h : distAlong f.normal f.c1 f.c2 ≠ 0) {q r : P3 ℝ} {t u : ℝ}
    (hq : OnPlane f.point f.normal q) (ht : AtFraction f.c1 f.c2 t q)
    (hr : OnPlane f.point f.normal r) (hu : AtFraction f.c1 f.c2 u r) : q = r := by
  have key : ∀ {q t}, OnPlane f.point f.normal q → AtFraction f.c1 f.c2 t q →
      t * distAlong f.normal f.c1 f.c2 = distAlong f.normal f.c1 f.point := by
    intro q t hq ht
    obtain ⟨h1, h2, h3⟩ := ht
    unfold OnPlane distAlong at hq
    rw [h1, h2, h3] at hq
    unfold distAlong
    linear_combination hq
  have he : t = u := mul_right_cancel₀ h ((key hq ht).trans (key hr hu).symm)
  subst he
  obtain ⟨h1, h2, h3⟩ := ht
  obtain ⟨g1, g2, g3⟩ := hu
  cases q
  cases r
  simp_all

theorem dist3_fraction {c d q : P3 ℝ} {t : ℝ} (h : AtFraction c d t q) :
    dist3 c q = |t| * dist3 c d ∧ dist3 d q = |1 - t| * dist3 c d := by
  obtain ⟨h1, h2, h3⟩ := h
  have key : ∀ (k : ℝ) (x y : ℝ), 0 ≤ y → x = k ^ 2 * y → √x = |k| * √y := by
    intro k x y hy hx
    rw [hx, Real.sqrt_mul (sq_nonneg k), Real.sqrt_sq_eq_abs]
  have hn : 0 ≤ distSq c d := by unfold distSq; positivity
  constructor
  · refine key _ _ _ hn ?_
    unfold distSq
    rw [h1, h2, h3]
    ring
  · refine key _ _ _ hn ?_
    unfold distSq
    rw [h1, h2, h3]
    ring

theorem pointToPlane_spec (c p n : P3 ℝ) (hn : IsUnit3 n) :
    (∀ q, OnPlane p n q → pointToPlane c p n false ≤ dist3 c q) ∧
    ∃ q, OnPlane p n q ∧ pointToPlane c p n false = dist3 c q := by
  have he : pointToPlane c p n false = |distAlong n p c| := by
    unfold pointToPlane dot P3.sub distAlong
    simp only [Bool.false_eq_true, if_false]
    congr 1
    ring
  rw [he]
  constructor
  · intro q hq
    unfold dist3
    rw [← Real.sqrt_sq_eq_abs]
    apply Real.sqrt_le_sqrt
    have h1 : distAlong n p c = distAlong n q c := by
      have : distAlong n p c = distAlong n p q + distAlong n q c := by unfold distAlong; ring
      rw [this, show distAlong n p q = 0 from hq, zero_add]
    rw [h1]
    unfold distAlong distSq
    unfold IsUnit3 at hn
    have := sq_nonneg (n.x * (c.y - q.y) - n.y * (c.x - q.x))
    have := sq_nonneg (n.y * (c.z - q.z) - n.z * (c.y - q.y))
    have := sq_nonneg (n.x * (c.z - q.z) - n.z * (c.x - q.x))
    have e : (c.x - q.x) ^ 2 + (c.y - q.y) ^ 2 + (c.z - q.z) ^ 2 =
        (n.x ^ 2 + n.y ^ 2 + n.z ^ 2) * ((c.x - q.x) ^ 2 + (c.y - q.y) ^ 2 + (c.z - q.z) ^ 2) := by
      rw [hn, one_mul]
    rw [e]
    nlinarith
  · unfold IsUnit3 at hn
    refine ⟨⟨c.x - distAlong n p c * n.x, c.y - distAlong n p c * n.y, c.z - distAlong n p c * n.z⟩, ?_, ?_⟩
    · have : distAlong n p ⟨c.x - distAlong n p c * n.x, c.y - distAlong n p c * n.y, c.z - distAlong n p c * n.z⟩ =
          distAlong n p c - distAlong n p c * (n.x ^ 2 + n.y ^ 2 + n.z ^ 2) := by
        generalize hk : distAlong n p c = k
        unfold distAlong at hk ⊢
        simp only
        linear_combination hk
      unfold OnPlane
      rw [this, hn]
      ring
    · unfold dist3
      rw [← Real.sqrt_sq_eq_abs]
      congr 1
      generalize distAlong n p c = k
      unfold distSq
      simp only
      linear_combination -k ^ 2 * hn

theorem interfaceOf_ok {pts nodes : List (P3 ℝ)} {fs : List (List (List ℕ))}
    {normals : List (List (P3 ℝ))} {areas : List (List ℝ)} {bounds : List Bool}
    (hN : List.Forall₂ (List.Forall₂ fun f n => ∃ p q r, FaceVertices pts (f.take 3) [p, q, r] ∧
      (¬ IsTriangleArea p q r 0 → IsNormal p q r n)) fs normals)
    (hA : List.Forall₂ (List.Forall₂ fun f A => ∃ ps, FaceVertices pts f ps ∧ IsArea ps A) fs areas)
    {w : ℕ × ℕ × ℕ} {f : Interface} (h : interfaceOf pts nodes fs normals areas bounds w = .ok f) :
    nodes[w.1]? = some f.c1 ∧ nodes[w.2.1]? = some f.c2 ∧
    bounds[w.1]? = some f.bound1 ∧ bounds[w.2.1]? = some f.bound2 ∧
    ∃ (v : List ℕ) (ps : List (P3 ℝ)) (p q s : P3 ℝ), FaceAt fs w.1 w.2.2 v ∧ FaceVertices pts v ps ∧
      IsArea ps f.area ∧ ps.take 3 = [p, q, s] ∧ f.point = p ∧
      (¬ IsTriangleArea p q s 0 → IsNormal p q s f.normal) := by
  unfold interfaceOf at h
  obtain ⟨c1, h1, h⟩ := bind_eq_ok.1 h
  obtain ⟨c2, h2, h⟩ := bind_eq_ok.1 h
  obtain ⟨row, h3, h⟩ := bind_eq_ok.1 h
  obtain ⟨face, h4, h⟩ := bind_eq_ok.1 h
  obtain ⟨v, h5, h⟩ := bind_eq_ok.1 h
  obtain ⟨p, h6, h⟩ := bind_eq_ok.1 h
  obtain ⟨ns, h7, h⟩ := bind_eq_ok.1 h
  obtain ⟨n, h8, h⟩ := bind_eq_ok.1 h
  obtain ⟨as, h9, h⟩ := bind_eq_ok.1 h
  obtain ⟨a, h10, h⟩ := bind_eq_ok.1 h
  obtain ⟨b1, h11, h⟩ := bind_eq_ok.1 h
  obtain ⟨b2, h12, h⟩ := bind_eq_ok.1 h
  cases h
  replace h3 := itemAt_ok h3
  replace h4 := itemAt_ok h4
  replace h5 := itemAt_ok h5
  replace h6 := itemAt_ok h6
  refine ⟨itemAt_ok h1, itemAt_ok h2, itemAt_ok h11, itemAt_ok h12, ?_⟩
  obtain ⟨row', x, e1, e2, p', q, r, e3, e4⟩ := forall₂_at hN (itemAt_ok h7) (itemAt_ok h8)
  rw [h3] at e1
  cases e1
  rw [h4] at e2
  cases e2
  obtain ⟨row', x, e1, e2, ps, e5, e6⟩ := forall₂_at hA (itemAt_ok h9) (itemAt_ok h10)
  rw [h3] at e1
  cases e1
  rw [h4] at e2
  cases e2
  have e7 : FaceVertices pts (face.take 3) (ps.take 3) := List.forall₂_take 3 e5
  have e8 : ps.take 3 = [p', q, r] := by
    refine List.right_unique_forall₂' ?_ e7 e3
    intro a b c hb hc
    rw [hb] at hc
    exact Option.some.inj hc
  refine ⟨face, ps, p', q, r, ⟨row, h3, h4⟩, e5, e6, e8, ?_, e4⟩
  cases e5 with
  | nil => cases e8
  | cons hh _ =>
    simp only [List.getElem?_cons_zero, Option.some.injEq] at h5
    subst h5
    rw [h6] at hh
    simp only [List.take_succ_cons, List.cons.injEq] at e8
    cases hh
    exact e8.1

/-! ### qualities -/

theorem cosine_range (l n : P3 ℝ) (hn : IsUnit3 n) :
    0 ≤ |dot (scale (1 / norm3 l) l) n| ∧ |dot (scale (1 / norm3 l) l) n| ≤ 1 := by
  refine ⟨abs_nonneg _, ?_⟩
  have he : dot (scale (1 / norm3 l) l) n = dot l n / norm3 l := by
    unfold dot scale
    ring
  rw [he]
  by_cases h0 : norm3 l = 0
  · rw [h0, div_zero, abs_zero]
    exact zero_le_one
  · have hp : 0 < norm3 l := lt_of_le_of_ne (norm3_nonneg l) (Ne.symm h0)
    rw [abs_div, abs_of_pos hp, div_le_one hp]
    refine abs_le_of_sq_le_sq' ?_ hp.le |> fun h => abs_le.2 h
    rw [norm3_sq]
    unfold IsUnit3 at hn
    have e : dot l l = (n.x ^ 2 + n.y ^ 2 + n.z ^ 2) * dot l l := by rw [hn, one_mul]
    rw [e]
    unfold dot
    nlinarith [sq_nonneg (n.x * l.y - n.y * l.x), sq_nonneg (n.y * l.z - n.z * l.y),
      sq_nonneg (n.x * l.z - n.z * l.x)]

theorem foldl_min_range (r : List ℝ) (a : ℝ) (ha : 0 ≤ a ∧ a ≤ 1) (hr : ∀ y ∈ r, 0 ≤ y ∧ y ≤ 1) :
    0 ≤ r.foldl min a ∧ r.foldl min a ≤ 1 := by
  induction r generalizing a with
  | nil => exact ha
  | cons b r ih =>
    refine ih _ ⟨le_min ha.1 (hr b List.mem_cons_self).1, (min_le_left _ _).trans ha.2⟩
      fun y hy => hr y (List.mem_cons_of_mem _ hy)

theorem foldl_min_spec (r : List ℝ) (a : ℝ) :
    r.foldl min a ∈ a :: r ∧ ∀ y ∈ a :: r, r.foldl min a ≤ y := by
  induction r generalizing a with
  | nil => simp
  | cons b r ih =>
    obtain ⟨h1, h2⟩ := ih (min a b)
    rw [List.foldl_cons]
    have hm := h2 (min a b) List.mem_cons_self
    constructor
    · rcases List.mem_cons.1 h1 with h1 | h1
      · rw [h1]
        rcases min_choice a b with h | h <;> rw [h] <;> simp
      · exact List.mem_cons_of_mem _ (List.mem_cons_of_mem _ h1)
    · intro y hy
      rcases List.mem_cons.1 hy with rfl | hy
      · exact hm.trans (min_le_left _ _)
      · rcases List.mem_cons.1 hy with rfl | hy
        · exact hm.trans (min_le_right _ _)
        · exact h2 y (List.mem_cons_of_mem _ hy)

theorem mem_gathered {ws : List (ℕ × ℕ × ℕ)} {angles : List ℝ} {k : ℕ} {y : ℝ} :
    y ∈ (((ws.zip angles).flatMap fun e => [(e.1.1, e.2), (e.1.2.1, e.2)]).filter (·.1 = k)).map (·.2) ↔
      ∃ w, (w, y) ∈ ws.zip angles ∧ (k = w.1 ∨ k = w.2.1) := by
  simp only [List.mem_map, List.mem_filter, List.mem_flatMap, List.mem_cons, List.not_mem_nil, or_false,
    decide_eq_true_eq, Prod.exists]
  constructor
  · rintro ⟨i, z, ⟨⟨a, b, c, w, hz, e | e⟩, rfl⟩, rfl⟩
    · cases e
      exact ⟨_, _, _, hz, .inl rfl⟩
    · cases e
      exact ⟨_, _, _, hz, .inr rfl⟩
  · rintro ⟨a, b, c, hz, rfl | rfl⟩
    · exact ⟨_, y, ⟨⟨_, b, c, y, hz, .inl rfl⟩, rfl⟩, rfl⟩
    · exact ⟨_, y, ⟨⟨a, _, c, y, hz, .inr rfl⟩, rfl⟩, rfl⟩

theorem forall₂_getElem? {α β : Type} {R : α → β → Prop} {l : List α} {r : List β} {i : ℕ} {y : β}
    (h : List.Forall₂ R l r) (hi : r[i]? = some y) : ∃ x, l[i]? = some x ∧ R x y := by
  rw [List.forall₂_iff_get] at h
  obtain ⟨hlt, he⟩ := List.getElem?_eq_some_iff.1 hi
  have hl : i < l.length := by rw [h.1]; exact hlt
  refine ⟨l[i], List.getElem?_eq_getElem hl, ?_⟩
  have := h.2 i hl hlt
  rw [List.get_eq_getElem, List.get_eq_getElem, he] at this
  exact this

theorem zip_left_mem {α β : Type} {R : α → β → Prop} {l : List α} {r : List β} {x : α}
    (h : List.Forall₂ R l r) (hx : x ∈ l) : ∃ y, (x, y) ∈ l.zip r := by
  induction h with
  | nil => cases hx
  | @cons a b l r _ _ ih =>
    rcases List.mem_cons.1 hx with rfl | hx
    · exact ⟨b, by simp⟩
    · obtain ⟨y, hy⟩ := ih hx
      exact ⟨y, by rw [List.zip_cons_cons]; exact List.mem_cons_of_mem _ hy⟩

theorem cosine_eq (c1 c2 n : P3 ℝ) :
    |dot (scale (1 / norm3 (c2.sub c1)) (c2.sub c1)) n| = |distAlong n c1 c2| / dist3 c1 c2 := by
  have he : dot (scale (1 / norm3 (c2.sub c1)) (c2.sub c1)) n = distAlong n c1 c2 / norm3 (c2.sub c1) := by
    generalize norm3 (c2.sub c1) = m
    unfold dot scale distAlong P3.sub
    ring
  rw [he, norm3_sub, dist3_comm, abs_div]
  congr 1
  exact abs_of_nonneg (Real.sqrt_nonneg _)

theorem interfaceOf_exists {pts nodes : List (P3 ℝ)} {fs : List (List (List ℕ))}
    {normals : List (List (P3 ℝ))} {areas : List (List ℝ)} {bounds : List Bool}
    (hN : List.Forall₂ (List.Forall₂ fun f n => ∃ p q r, FaceVertices pts (f.take 3) [p, q, r] ∧
      (¬ IsTriangleArea p q r 0 → IsNormal p q r n)) fs normals)
    (hA : List.Forall₂ (List.Forall₂ fun f A => ∃ ps, FaceVertices pts f ps ∧ IsArea ps A) fs areas)
    {i j a : ℕ} {f : List ℕ} (hf : FaceAt fs i a f) (h1 : i < nodes.length) (h2 : j < nodes.length)
    (h3 : i < bounds.length) (h4 : j < bounds.length) :
    ∃ x, interfaceOf pts nodes fs normals areas bounds (i, j, a) = .ok x := by
  obtain ⟨row, g1, g2⟩ := hf
  have key : ∀ {α β : Type} {R : α → β → Prop} {l : List α} {r : List β} {i : ℕ} {x : α},
      List.Forall₂ R l r → l[i]? = some x → ∃ y, r[i]? = some y ∧ R x y := by
    intro α β R l r i x h hi
    obtain ⟨y, hy, hR⟩ := forall₂_getElem? h.flip hi
    exact ⟨y, hy, hR⟩
  obtain ⟨ns, n1, n2⟩ := key hN g1
  obtain ⟨n, n3, p, q, r, n4, -⟩ := key n2 g2
  obtain ⟨as, a1, a2⟩ := key hA g1
  obtain ⟨A, a3, -⟩ := key a2 g2
  cases f with
  | nil => cases n4
  | cons v f =>
    rw [List.take_succ_cons] at n4
    have hp : pts[v]? = some p := by
      cases n4
      assumption
    have hi : ∀ {α : Type} {l : List α} {i : ℕ} {x : α}, l[i]? = some x → itemAt l i = .ok x := by
      intro α l i x h
      unfold itemAt
      rw [h]
    unfold interfaceOf
    simp only [hi (List.getElem?_eq_getElem h1), hi (List.getElem?_eq_getElem h2), hi g1, hi g2,
      hi (List.getElem?_cons_zero (a := v) (l := f)), hi hp, hi n1, hi n3, hi a1, hi a3,
      hi (List.getElem?_eq_getElem h3), hi (List.getElem?_eq_getElem h4), ok_bind]
    exact ⟨_, rfl⟩

end Verif.Mesh
