import Verif.Spec.Moved
import Verif.Lemmas.Output
import Verif.Lemmas.Layout
import Mathlib.Tactic.Linarith
import Mathlib.Tactic.Ring
import Mathlib.Tactic.FieldSimp
import Mathlib.Tactic.Positivity

/-!
# Lemmas: meshes that are moved and scaled (C104)
-/

namespace Verif.Mesh
open Verif.Py Verif.Model Verif.Spec

variable {s : ℝ} {v : P3 ℝ}

/-! ### Loops -/

theorem mapM_map_ok {α β γ : Type} {f : α → Except PyErr β} {f' : α → Except PyErr γ} {g : β → γ} {l : List α}
    (h : ∀ x ∈ l, f' x = (f x).map g) : l.mapM f' = (l.mapM f).map (List.map g) := by
  induction l with
  | nil => rfl
  | cons x l ih =>
    rw [List.mapM_cons, List.mapM_cons, h x List.mem_cons_self, ih fun y hy => h y (List.mem_cons_of_mem _ hy)]
    cases f x with
    | error e => rfl
    | ok y =>
      cases l.mapM f with
      | error e => rfl
      | ok ys => rfl

theorem rowsAt_mapped {α β : Type} (g : α → β) (pts : List α) (c : List ℕ) :
    rowsAt (pts.map g) c = (rowsAt pts c).map (List.map g) := by
  unfold rowsAt
  refine mapM_map_ok fun i _ => ?_
  rw [List.getElem?_map]
  cases pts[i]? <;> rfl

theorem itemAt_map {α β : Type} (g : α → β) (l : List α) (i : ℕ) : itemAt (l.map g) i = (itemAt l i).map g := by
  unfold itemAt
  rw [List.getElem?_map]
  cases l[i]? <;> rfl

theorem gather_map {α β : Type} (g : α → β) (n : ℕ) (l : List (ℕ × α)) :
    gather n (l.map fun e => (e.1, g e.2)) = (gather n l).map (List.map g) := by
  unfold gather
  have h : ∀ out : List (List α), (l.map fun e => (e.1, g e.2)).foldl (fun out e => out.modify e.1 (· ++ [e.2]))
      (out.map (List.map g)) = (l.foldl (fun out e => out.modify e.1 (· ++ [e.2])) out).map (List.map g) := by
    induction l with
    | nil => intro out; rfl
    | cons e l ih =>
      intro out
      rw [List.map_cons, List.foldl_cons, List.foldl_cons, ← ih]
      congr 1
      refine List.ext_getElem? fun i => ?_
      rw [List.getElem?_modify, List.getElem?_map, List.getElem?_map, List.getElem?_modify]
      cases out[i]? with
      | none => rfl
      | some x =>
        by_cases hi : e.1 = i
        · simp [hi]
        · simp [hi]
  have := h (List.replicate n [])
  rw [List.map_replicate] at this
  exact this

theorem zip_mapped {α β γ : Type} (g : β → γ) (as : List α) (bs : List β) :
    as.zip (bs.map g) = (as.zip bs).map fun e => (e.1, g e.2) := by
  rw [List.zip_map_right]
  rfl

/-! ### Vectors -/

/-- A vector is scaled. -/
def stretched (s : ℝ) (p : P3 ℝ) : P3 ℝ := ⟨s * p.x, s * p.y, s * p.z⟩

theorem moved_sub (p q : P3 ℝ) : (moved s v p).sub (moved s v q) = stretched s (p.sub q) := by
  unfold moved stretched P3.sub
  ext <;> simp only <;> ring

theorem cross_stretched (p q : P3 ℝ) : cross (stretched s p) (stretched s q) = stretched (s ^ 2) (cross p q) := by
  unfold cross stretched
  ext <;> simp only <;> ring

theorem triple_stretched (p q r : P3 ℝ) :
    tripleProduct (stretched s p) (stretched s q) (stretched s r) = s ^ 3 * tripleProduct p q r := by
  unfold tripleProduct cross stretched
  simp only
  ring

theorem dot_stretched (p q : P3 ℝ) : dot (stretched s p) q = s * dot p q := by
  unfold dot stretched
  simp only
  ring

theorem norm_stretched (hs : 0 ≤ s) (p : P3 ℝ) : norm3 (stretched s p) = s * norm3 p := by
  unfold norm3
  have : dot (stretched s p) (stretched s p) = s ^ 2 * dot p p := by
    unfold dot stretched
    simp only
    ring
  rw [this, Real.sqrt_mul (by positivity), Real.sqrt_sq hs]

theorem unit_stretched (hs : 0 < s) (p : P3 ℝ) :
    scale (1 / norm3 (stretched s p)) (stretched s p) = scale (1 / norm3 p) p := by
  rw [norm_stretched hs.le]
  unfold scale stretched
  have h : ∀ a : ℝ, s * a * (1 / (s * norm3 p)) = a * (1 / norm3 p) := by
    intro a
    rw [one_div, mul_inv, one_div]
    have : s * a * (s⁻¹ * (norm3 p)⁻¹) = (s * s⁻¹) * (a * (norm3 p)⁻¹) := by ring
    rw [this, mul_inv_cancel₀ hs.ne', one_mul]
  ext <;> exact h _

theorem isot_stretched (hs : 0 < s) (l : P3 ℝ) : isot (stretched s l) = isot l := by
  unfold isot stretched
  simp only [ne_eq, mul_eq_zero, hs.ne', false_or]

theorem angle_stretched (hs : 0 < s) (l : P3 ℝ) : angle (stretched s l) = angle l := by
  unfold angle
  rw [dot_stretched, norm_stretched hs.le, mul_div_mul_left _ _ hs.ne']

theorem meets_moved (hs : 0 < s) (c l p n : P3 ℝ) :
    lineMeetsPlane (moved s v c) (stretched s l) (moved s v p) n = moved s v (lineMeetsPlane c l p n) := by
  unfold lineMeetsPlane
  rw [moved_sub, dot_stretched, dot_stretched, mul_div_mul_left _ _ hs.ne']
  unfold P3.plus scale moved stretched
  ext <;> simp only <;> ring

/-! ### Cells -/

theorem mean_moved {ps : List (P3 ℝ)} (h : ps ≠ []) : mean (ps.map (moved s v)) = moved s v (mean ps) := by
  have hl : (ps.length : ℝ) ≠ 0 := by
    rw [Nat.cast_ne_zero]
    exact fun h0 => h (List.length_eq_zero_iff.1 h0)
  have key : ∀ (f : P3 ℝ → ℝ) (b : ℝ), (ps.map fun p => s * f p + b).sum / (ps.length : ℝ) =
      s * ((ps.map f).sum / (ps.length : ℝ)) + b := by
    intro f b
    have : ∀ qs : List (P3 ℝ), (qs.map fun p => s * f p + b).sum = s * (qs.map f).sum + qs.length * b := by
      intro qs
      induction qs with
      | nil => simp
      | cons q qs ih =>
        rw [List.map_cons, List.sum_cons, ih, List.map_cons, List.sum_cons, List.length_cons]
        push_cast
        ring
    rw [this]
    field_simp
  unfold mean
  rw [List.length_map]
  simp only [List.map_map, Function.comp_def]
  ext
  · exact key (·.x) v.x
  · exact key (·.y) v.y
  · exact key (·.z) v.z

theorem mapM_length {α β : Type} {f : α → Except PyErr β} {l : List α} {r : List β} (h : l.mapM f = .ok r) :
    r.length = l.length := by
  induction l generalizing r with
  | nil =>
    cases h
    rfl
  | cons x l ih =>
    rw [List.mapM_cons] at h
    obtain ⟨y, -, h⟩ := bind_eq_ok.1 h
    obtain ⟨ys, h1, h⟩ := bind_eq_ok.1 h
    cases h
    rw [List.length_cons, List.length_cons, ih h1]

theorem center_moved (pts : List (P3 ℝ)) {c : List ℕ} (hc : c ≠ []) :
    (do let ps ← rowsAt (pts.map (moved s v)) c
        .ok (mean ps) : Except PyErr (P3 ℝ)) =
      Except.map (moved s v) (do
        let ps ← rowsAt pts c
        .ok (mean ps)) := by
  rw [rowsAt_mapped]
  cases h : rowsAt pts c with
  | error e => rfl
  | ok ps =>
    have hp : ps ≠ [] := by
      have := mapM_length h
      intro h0
      rw [h0] at this
      exact hc (List.length_eq_zero_iff.1 this.symm)
    show Except.ok _ = Except.ok _
    rw [mean_moved hp]

theorem sixth_mapped {k : ℝ} {x x' : Except PyErr (List ℝ)} (h : x' = x.map (List.map (k * ·))) :
    (do let vs ← x'
        .ok (vs.sum / 6) : Except PyErr ℝ) = Except.map (k * ·) (do
      let vs ← x
      .ok (vs.sum / 6)) := by
  subst h
  cases x with
  | error e => rfl
  | ok vs =>
    show Except.ok _ = Except.ok _
    rw [List.sum_map_mul_left, List.map_id', mul_div_assoc]

theorem cellVolume_moved (hs : 0 < s) (pts : List (P3 ℝ)) (ts : List (List ℕ)) (c : List ℕ) :
    cellVolume (pts.map (moved s v)) ts c = (cellVolume pts ts c).map (s ^ 3 * ·) := by
  unfold cellVolume
  refine sixth_mapped (mapM_map_ok fun t _ => ?_)
  cases rowsAt c t with
  | error e => rfl
  | ok tt =>
    simp only [ok_bind]
    rw [rowsAt_mapped]
    cases rowsAt pts tt with
    | error e => rfl
    | ok ps =>
      match ps with
      | [] => rfl
      | [_] => rfl
      | [_, _] => rfl
      | [_, _, _] => rfl
      | [p0, p1, p2, p3] =>
        show Except.ok _ = Except.ok _
        rw [moved_sub, moved_sub, moved_sub, triple_stretched, abs_mul, abs_of_pos (by positivity)]
      | _ :: _ :: _ :: _ :: _ :: _ => rfl

/-! ### Faces -/

theorem triangleNormal_moved (pts : List (P3 ℝ)) (is f : List ℕ) :
    triangleNormal (pts.map (moved s v)) is f = (triangleNormal pts is f).map (stretched (s ^ 2)) := by
  unfold triangleNormal
  cases rowsAt f is with
  | error e => rfl
  | ok t =>
    simp only [ok_bind]
    rw [rowsAt_mapped]
    cases rowsAt pts t with
    | error e => rfl
    | ok ps =>
      match ps with
      | [] => rfl
      | [_] => rfl
      | [_, _] => rfl
      | [p0, p1, p2] =>
        show Except.ok _ = Except.ok _
        rw [moved_sub, moved_sub, cross_stretched]
      | _ :: _ :: _ :: _ :: _ => rfl

theorem faceNormals_moved (hs : 0 < s) (pts : List (P3 ℝ)) (fs : List (List (List ℕ))) :
    faceNormals (pts.map (moved s v)) fs = faceNormals pts fs := by
  unfold faceNormals
  split
  · rfl
  · rw [mapM_map_ok (g := stretched (s ^ 2)) (f := fun o : List ℕ × ℕ × ℕ => triangleNormal pts [0, 1, 2] o.1)
      fun o _ => triangleNormal_moved pts _ _]
    cases List.mapM (fun o : List ℕ × ℕ × ℕ => triangleNormal pts [0, 1, 2] o.1) (facesInOrder fs) with
    | error e => rfl
    | ok ns =>
      show Except.ok _ = Except.ok _
      rw [List.map_map]
      simp only [Function.comp_def, unit_stretched (pow_pos hs 2)]

theorem faceArea_moved (pts : List (P3 ℝ)) (f : List ℕ) :
    faceArea (pts.map (moved s v)) f = (faceArea pts f).map (s ^ 2 * ·) := by
  unfold faceArea
  rw [triangleNormal_moved, triangleNormal_moved]
  have h2 : (0 : ℝ) ≤ s ^ 2 := by positivity
  cases triangleNormal pts [0, 1, 2] f with
  | error e => rfl
  | ok n =>
    show (if f.length = 4 then _ else _) = Except.map _ (if f.length = 4 then _ else _)
    split
    · cases triangleNormal pts [0, 2, 3] f with
      | error e => rfl
      | ok w =>
        show Except.ok _ = Except.ok _
        rw [norm_stretched h2, norm_stretched h2]
        congr 1
        ring
    · show Except.ok _ = Except.ok _
      rw [norm_stretched h2]
      congr 1
      ring

theorem faceAreas_moved (pts : List (P3 ℝ)) (fs : List (List (List ℕ))) :
    faceAreas (pts.map (moved s v)) fs = (faceAreas pts fs).map (List.map (List.map (s ^ 2 * ·))) := by
  unfold faceAreas
  split
  · rfl
  · rw [mapM_map_ok (g := (s ^ 2 * ·)) (f := fun o : List ℕ × ℕ × ℕ => faceArea pts o.1) fun o _ => faceArea_moved pts _]
    cases List.mapM (fun o : List ℕ × ℕ × ℕ => faceArea pts o.1) (facesInOrder fs) with
    | error e => rfl
    | ok as =>
      show Except.ok _ = Except.ok _
      rw [zip_mapped, gather_map]

/-! ### Connections -/

/-- An interface in the mesh that was scaled and moved. -/
noncomputable def Interface.moved (s : ℝ) (v : P3 ℝ) (f : Interface) : Interface :=
  ⟨Spec.moved s v f.c1, Spec.moved s v f.c2, Spec.moved s v f.point, f.normal, s ^ 2 * f.area, f.bound1, f.bound2⟩

theorem interfaceOf_moved (pts nodes : List (P3 ℝ)) (fs : List (List (List ℕ))) (normals : List (List (P3 ℝ)))
    (areas : List (List ℝ)) (bounds : List Bool) (w : ℕ × ℕ × ℕ) :
    interfaceOf (pts.map (moved s v)) (nodes.map (moved s v)) fs normals (areas.map (List.map (s ^ 2 * ·))) bounds w =
      (interfaceOf pts nodes fs normals areas bounds w).map (Interface.moved s v) := by
  unfold interfaceOf
  simp only [itemAt_map]
  rcases itemAt nodes w.1 with e | c1
  · rfl
  rcases itemAt nodes w.2.1 with e | c2
  · rfl
  rcases itemAt fs w.1 with e | row
  · rfl
  simp only [Except.map, ok_bind]
  rcases itemAt row w.2.2 with e | face
  · rfl
  simp only [ok_bind]
  rcases itemAt face 0 with e | i
  · rfl
  simp only [ok_bind]
  rcases itemAt pts i with e | p
  · rfl
  rcases itemAt normals w.1 with e | ns
  · rfl
  simp only [ok_bind]
  rcases itemAt ns w.2.2 with e | n
  · rfl
  rcases itemAt areas w.1 with e | as
  · rfl
  simp only [ok_bind, itemAt_map]
  rcases itemAt as w.2.2 with e | a
  · rfl
  rcases itemAt bounds w.1 with e | b1
  · rfl
  rcases itemAt bounds w.2.1 with e | b2
  · rfl
  rfl

theorem interfaceOf_bounds {pts nodes : List (P3 ℝ)} {fs : List (List (List ℕ))} {normals : List (List (P3 ℝ))}
    {areas : List (List ℝ)} {bounds : List Bool} {w : ℕ × ℕ × ℕ} {f : Interface}
    (h : interfaceOf pts nodes fs normals areas bounds w = .ok f) :
    bounds[w.1]? = some f.bound1 ∧ bounds[w.2.1]? = some f.bound2 := by
  unfold interfaceOf at h
  obtain ⟨c1, -, h⟩ := bind_eq_ok.1 h
  obtain ⟨c2, -, h⟩ := bind_eq_ok.1 h
  obtain ⟨row, -, h⟩ := bind_eq_ok.1 h
  obtain ⟨face, -, h⟩ := bind_eq_ok.1 h
  obtain ⟨i, -, h⟩ := bind_eq_ok.1 h
  obtain ⟨p, -, h⟩ := bind_eq_ok.1 h
  obtain ⟨ns, -, h⟩ := bind_eq_ok.1 h
  obtain ⟨n, -, h⟩ := bind_eq_ok.1 h
  obtain ⟨as, -, h⟩ := bind_eq_ok.1 h
  obtain ⟨a, -, h⟩ := bind_eq_ok.1 h
  obtain ⟨b1, h1, h⟩ := bind_eq_ok.1 h
  obtain ⟨b2, h2, h⟩ := bind_eq_ok.1 h
  cases h
  have key : ∀ {i : ℕ} {b : Bool}, itemAt bounds i = .ok b → bounds[i]? = some b := by
    intro i b hb
    unfold itemAt at hb
    split at hb
    · cases hb
      assumption
    · cases hb
  exact ⟨key h1, key h2⟩

theorem line_moved (f : Interface) : (f.moved s v).line = stretched s f.line := moved_sub _ _

theorem distances_moved (hs : 0 < s) (opt : NodalDistance) (f : Interface) :
    DistScaled s (some f.bound1) (nodalDistances opt f).1 (nodalDistances opt (f.moved s v)).1 ∧
      DistScaled s (some f.bound2) (nodalDistances opt f).2 (nodalDistances opt (f.moved s v)).2 := by
  have key : ∀ (b : Bool) (d d' : ℝ), d' = s * d →
      DistScaled s (some b) (if b then 1e-9 else d) (if b then 1e-9 else d') := by
    intro b d d' h
    cases b with
    | true => exact .inr ⟨rfl, rfl⟩
    | false => exact .inl ⟨rfl, h⟩
  cases opt with
  | line =>
    unfold nodalDistances
    simp only [line_moved]
    have e : lineMeetsPlane (f.moved s v).c1 (stretched s f.line) (f.moved s v).point (f.moved s v).normal =
        Spec.moved s v (lineMeetsPlane f.c1 f.line f.point f.normal) := meets_moved hs _ _ _ _
    rw [e]
    refine ⟨key _ _ _ ?_, key _ _ _ ?_⟩
    · show norm3 ((Spec.moved s v f.c1).sub _) = _
      rw [moved_sub, norm_stretched hs.le]
    · show norm3 ((Spec.moved s v f.c2).sub _) = _
      rw [moved_sub, norm_stretched hs.le]
  | orthogonal =>
    unfold nodalDistances pointToPlane
    simp only
    refine ⟨key _ _ _ ?_, key _ _ _ ?_⟩
    · show |dot ((Spec.moved s v f.c1).sub (Spec.moved s v f.point)) f.normal| = _
      rw [moved_sub, dot_stretched, abs_mul, abs_of_pos hs]
    · show |dot ((Spec.moved s v f.c2).sub (Spec.moved s v f.point)) f.normal| = _
      rw [moved_sub, dot_stretched, abs_mul, abs_of_pos hs]

theorem connRowsOf_moved (hs : 0 < s) (opt : NodalDistance) (pts nodes : List (P3 ℝ)) (fs : List (List (List ℕ)))
    (normals : List (List (P3 ℝ))) (areas : List (List ℝ)) (bounds : List Bool) :
    (∀ e, connRowsOf opt pts nodes fs normals areas bounds = .error e →
      connRowsOf opt (pts.map (moved s v)) (nodes.map (moved s v)) fs normals (areas.map (List.map (s ^ 2 * ·))) bounds =
        .error e) ∧
    ∀ rows, connRowsOf opt pts nodes fs normals areas bounds = .ok rows → ∃ rows',
      connRowsOf opt (pts.map (moved s v)) (nodes.map (moved s v)) fs normals (areas.map (List.map (s ^ 2 * ·))) bounds =
        .ok rows' ∧ List.Forall₂ (RowScaled s bounds) rows rows' := by
  unfold connRowsOf
  simp only
  rw [mapM_map_ok (g := Interface.moved s v) (f := interfaceOf pts nodes fs normals areas bounds)
    fun w _ => interfaceOf_moved pts nodes fs normals areas bounds w]
  cases hi : List.mapM (interfaceOf pts nodes fs normals areas bounds) (writtenConnections (connectionsOf fs)) with
  | error e => exact ⟨fun e' h => h, fun rows h => by cases h⟩
  | ok is =>
    simp only [Except.map, ok_bind]
    by_cases hw : writtenConnections (connectionsOf fs) = []
    · simp only [if_pos hw]
      exact ⟨fun e h => h, fun rows h => by cases h⟩
    · simp only [if_neg hw]
      refine ⟨fun e h => (nomatch h), fun rows h => ⟨_, rfl, ?_⟩⟩
      cases h
      have hf := mapM_eq_ok hi
      clear hi hw
      generalize writtenConnections (connectionsOf fs) = ws at hf
      induction hf with
      | nil => exact .nil
      | @cons w f ws is h1 _ ih =>
        refine .cons ?_ ih
        obtain ⟨b1, b2⟩ := interfaceOf_bounds h1
        obtain ⟨d1, d2⟩ := distances_moved (v := v) hs opt f
        refine ⟨rfl, rfl, ?_, ?_, ?_, rfl, ?_⟩
        · show isot (f.moved s v).line = _
          rw [line_moved, isot_stretched hs]
        · rw [← b1] at d1
          exact d1
        · rw [← b2] at d2
          exact d2
        · show angle (f.moved s v).line = _
          rw [line_moved, angle_stretched hs]

theorem qualities_moved (hs : 0 < s) (pts nodes : List (P3 ℝ)) (fs : List (List (List ℕ))) :
    qualities (pts.map (moved s v)) (nodes.map (moved s v)) fs = qualities pts nodes fs := by
  unfold qualities
  rw [faceNormals_moved hs]
  cases faceNormals pts fs with
  | error e => rfl
  | ok normals =>
    simp only [ok_bind]
    congr 1
    refine congrFun (congrArg _ (funext fun w => ?_)) _
    simp only [itemAt_map]
    rcases itemAt nodes w.1 with e | c1
    · rfl
    rcases itemAt nodes w.2.1 with e | c2
    · rfl
    simp only [Except.map, ok_bind]
    rcases itemAt normals w.1 with e | ns
    · rfl
    simp only [ok_bind]
    rcases itemAt ns w.2.2 with e | n
    · rfl
    simp only [ok_bind]
    rw [moved_sub, unit_stretched hs]

/-! ### The nearest cell -/

theorem argmin_scaled {k : ℝ} (hk : 0 < k) (l : List ℝ) : argmin (l.map (k * ·)) = argmin l := by
  cases l with
  | nil => rfl
  | cons x l =>
    have h : ∀ (l : List ℝ) (n : ℕ) (i : ℕ) (x : ℝ),
        ((l.map (k * ·)).zipIdx n).foldl (fun (best : ℕ × ℝ) e => if e.1 < best.2 then (e.2, e.1) else best) (i, k * x) =
          (fun r : ℕ × ℝ => (r.1, k * r.2)) ((l.zipIdx n).foldl
            (fun (best : ℕ × ℝ) e => if e.1 < best.2 then (e.2, e.1) else best) (i, x)) := by
      intro l
      induction l with
      | nil => intro n i x; rfl
      | cons y l ih =>
        intro n i x
        rw [List.map_cons, List.zipIdx_cons, List.foldl_cons, List.zipIdx_cons, List.foldl_cons]
        simp only [mul_lt_mul_iff_right₀ hk]
        split
        · exact ih _ _ _
        · exact ih _ _ _
    unfold argmin
    rw [List.map_cons]
    simp only
    rw [h]

theorem dist2_moved (p q : P3 ℝ) : dist2 (moved s v p) (moved s v q) = s ^ 2 * dist2 p q := by
  unfold dist2 moved
  simp only
  ring

end Verif.Mesh
