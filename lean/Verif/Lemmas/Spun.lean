import Verif.Spec.Spun
import Verif.Lemmas.Moved
import Mathlib.Tactic.LinearCombination

/-!
# Lemmas: meshes that are turned about the vertical (C107)
-/

namespace Verif.Mesh
open Verif.Py Verif.Model Verif.Spec

variable {c s : ℝ}

/-! ### Vectors -/

theorem spun_sub (p q : P3 ℝ) : (spun c s p).sub (spun c s q) = spun c s (p.sub q) := by
  unfold spun P3.sub
  ext <;> simp only <;> ring

theorem spun_plus (p q : P3 ℝ) : (spun c s p).plus (spun c s q) = spun c s (p.plus q) := by
  unfold spun P3.plus
  ext <;> simp only <;> ring

theorem spun_scale (k : ℝ) (p : P3 ℝ) : scale k (spun c s p) = spun c s (scale k p) := by
  unfold spun scale
  ext <;> simp only <;> ring

theorem spun_dot (h : c ^ 2 + s ^ 2 = 1) (p q : P3 ℝ) : dot (spun c s p) (spun c s q) = dot p q := by
  unfold spun dot
  simp only
  linear_combination (p.x * q.x + p.y * q.y) * h

theorem spun_cross (h : c ^ 2 + s ^ 2 = 1) (p q : P3 ℝ) :
    cross (spun c s p) (spun c s q) = spun c s (cross p q) := by
  unfold spun cross
  ext
  · simp only; ring
  · simp only; ring
  · simp only
    linear_combination (p.x * q.y - p.y * q.x) * h

theorem spun_triple (h : c ^ 2 + s ^ 2 = 1) (p q r : P3 ℝ) :
    tripleProduct (spun c s p) (spun c s q) (spun c s r) = tripleProduct p q r := by
  have e : ∀ a b d : P3 ℝ, tripleProduct a b d = dot a (cross b d) := fun _ _ _ => rfl
  rw [e, e, spun_cross h, spun_dot h]

theorem spun_norm (h : c ^ 2 + s ^ 2 = 1) (p : P3 ℝ) : norm3 (spun c s p) = norm3 p := by
  unfold norm3
  rw [spun_dot h]

theorem spun_angle (h : c ^ 2 + s ^ 2 = 1) (l : P3 ℝ) : angle (spun c s l) = angle l := by
  unfold angle
  rw [spun_norm h]
  congr 1
  unfold dot spun
  simp only
  ring

theorem isot_vertical (l : P3 ℝ) : isot l = 3 ↔ l.x = 0 ∧ l.y = 0 ∧ l.z ≠ 0 := by
  unfold isot
  by_cases hx : l.x = 0 <;> by_cases hy : l.y = 0 <;> by_cases hz : l.z = 0 <;> simp [hx, hy, hz]

theorem spun_vertical (h : c ^ 2 + s ^ 2 = 1) (l : P3 ℝ) : isot (spun c s l) = 3 ↔ isot l = 3 := by
  rw [isot_vertical, isot_vertical]
  unfold spun
  simp only
  constructor
  · rintro ⟨hx, hy, hz⟩
    refine ⟨?_, ?_, hz⟩
    · linear_combination c * hx + s * hy - l.x * h
    · linear_combination c * hy - s * hx - l.y * h
  · rintro ⟨hx, hy, hz⟩
    refine ⟨?_, ?_, hz⟩
    · rw [hx, hy]; ring
    · rw [hx, hy]; ring

theorem spun_meets (h : c ^ 2 + s ^ 2 = 1) (o l p n : P3 ℝ) :
    lineMeetsPlane (spun c s o) (spun c s l) (spun c s p) (spun c s n) = spun c s (lineMeetsPlane o l p n) := by
  unfold lineMeetsPlane
  rw [spun_sub, spun_dot h, spun_dot h, spun_scale, spun_plus]

/-! ### Cells -/

theorem spun_mean (ps : List (P3 ℝ)) : mean (ps.map (spun c s)) = spun c s (mean ps) := by
  have key : ∀ (a b : ℝ) (f g : P3 ℝ → ℝ), (ps.map fun p => a * f p + b * g p).sum =
      a * (ps.map f).sum + b * (ps.map g).sum := by
    intro a b f g
    induction ps with
    | nil => simp
    | cons q qs ih =>
      rw [List.map_cons, List.sum_cons, ih, List.map_cons, List.sum_cons, List.map_cons, List.sum_cons]
      ring
  unfold mean
  rw [List.length_map]
  simp only [List.map_map, Function.comp_def]
  ext
  · show (ps.map fun p => c * p.x - s * p.y).sum / _ = c * _ - s * _
    have := key c (-s) (·.x) (·.y)
    simp only [neg_mul, ← sub_eq_add_neg] at this
    rw [this]
    ring
  · show (ps.map fun p => s * p.x + c * p.y).sum / _ = s * _ + c * _
    rw [key s c (·.x) (·.y)]
    ring
  · rfl

theorem spun_center (pts : List (P3 ℝ)) (e : List ℕ) :
    (do let ps ← rowsAt (pts.map (spun c s)) e
        .ok (mean ps) : Except PyErr (P3 ℝ)) =
      Except.map (spun c s) (do
        let ps ← rowsAt pts e
        .ok (mean ps)) := by
  rw [rowsAt_mapped]
  cases rowsAt pts e with
  | error e => rfl
  | ok ps =>
    show Except.ok _ = Except.ok _
    rw [spun_mean]

theorem spun_cellVolume (h : c ^ 2 + s ^ 2 = 1) (pts : List (P3 ℝ)) (ts : List (List ℕ)) (e : List ℕ) :
    cellVolume (pts.map (spun c s)) ts e = cellVolume pts ts e := by
  unfold cellVolume
  congr 1
  refine congrFun (congrArg _ (funext fun t => ?_)) _
  cases rowsAt e t with
  | error e => rfl
  | ok tt =>
    simp only [ok_bind]
    rw [rowsAt_mapped]
    cases rowsAt pts tt with
    | error e => rfl
    | ok ps =>
      match ps with
      | [] => rfl
      | [_] => rfl
      | [_, _] => rfl
      | [_, _, _] => rfl
      | [p0, p1, p2, p3] =>
        show Except.ok _ = Except.ok _
        rw [spun_sub, spun_sub, spun_sub, spun_triple h]
      | _ :: _ :: _ :: _ :: _ :: _ => rfl

/-! ### Faces -/

theorem spun_triangleNormal (h : c ^ 2 + s ^ 2 = 1) (pts : List (P3 ℝ)) (is f : List ℕ) :
    triangleNormal (pts.map (spun c s)) is f = (triangleNormal pts is f).map (spun c s) := by
  unfold triangleNormal
  cases rowsAt f is with
  | error e => rfl
  | ok t =>
    simp only [ok_bind]
    rw [rowsAt_mapped]
    cases rowsAt pts t with
    | error e => rfl
    | ok ps =>
      match ps with
      | [] => rfl
      | [_] => rfl
      | [_, _] => rfl
      | [p0, p1, p2] =>
        show Except.ok _ = Except.ok _
        rw [spun_sub, spun_sub, spun_cross h]
      | _ :: _ :: _ :: _ :: _ => rfl

theorem spun_faceNormals (h : c ^ 2 + s ^ 2 = 1) (pts : List (P3 ℝ)) (fs : List (List (List ℕ))) :
    faceNormals (pts.map (spun c s)) fs = (faceNormals pts fs).map (List.map (List.map (spun c s))) := by
  unfold faceNormals
  split
  · rfl
  · rw [mapM_map_ok (g := spun c s) (f := fun o : List ℕ × ℕ × ℕ => triangleNormal pts [0, 1, 2] o.1)
      fun o _ => spun_triangleNormal h pts _ _]
    cases List.mapM (fun o : List ℕ × ℕ × ℕ => triangleNormal pts [0, 1, 2] o.1) (facesInOrder fs) with
    | error e => rfl
    | ok ns =>
      show Except.ok _ = Except.ok _
      have e : (ns.map (spun c s)).map (fun v => scale (1 / norm3 v) v) =
          (ns.map fun v => scale (1 / norm3 v) v).map (spun c s) := by
        simp only [List.map_map, Function.comp_def, spun_norm h, spun_scale]
      rw [e, zip_mapped, gather_map]

theorem spun_faceArea (h : c ^ 2 + s ^ 2 = 1) (pts : List (P3 ℝ)) (f : List ℕ) :
    faceArea (pts.map (spun c s)) f = faceArea pts f := by
  unfold faceArea
  rw [spun_triangleNormal h, spun_triangleNormal h]
  cases triangleNormal pts [0, 1, 2] f with
  | error e => rfl
  | ok n =>
    show (if f.length = 4 then _ else _) = (if f.length = 4 then _ else _)
    split
    · cases triangleNormal pts [0, 2, 3] f with
      | error e => rfl
      | ok w =>
        show Except.ok _ = Except.ok _
        rw [spun_norm h, spun_norm h]
    · rw [spun_norm h]

theorem spun_faceAreas (h : c ^ 2 + s ^ 2 = 1) (pts : List (P3 ℝ)) (fs : List (List (List ℕ))) :
    faceAreas (pts.map (spun c s)) fs = faceAreas pts fs := by
  unfold faceAreas
  simp only [spun_faceArea h]

/-! ### Connections -/

/-- An interface in the mesh that was turned. -/
noncomputable def Interface.spun (c s : ℝ) (f : Interface) : Interface :=
  ⟨Spec.spun c s f.c1, Spec.spun c s f.c2, Spec.spun c s f.point, Spec.spun c s f.normal, f.area, f.bound1, f.bound2⟩

theorem spun_interfaceOf (pts nodes : List (P3 ℝ)) (fs : List (List (List ℕ))) (normals : List (List (P3 ℝ)))
    (areas : List (List ℝ)) (bounds : List Bool) (w : ℕ × ℕ × ℕ) :
    interfaceOf (pts.map (spun c s)) (nodes.map (spun c s)) fs (normals.map (List.map (spun c s))) areas bounds w =
      (interfaceOf pts nodes fs normals areas bounds w).map (Interface.spun c s) := by
  unfold interfaceOf
  simp only [itemAt_map]
  rcases itemAt nodes w.1 with e | c1
  · rfl
  rcases itemAt nodes w.2.1 with e | c2
  · rfl
  rcases itemAt fs w.1 with e | row
  · rfl
  simp only [Except.map, ok_bind]
  rcases itemAt row w.2.2 with e | face
  · rfl
  simp only [ok_bind]
  rcases itemAt face 0 with e | i
  · rfl
  simp only [ok_bind]
  rcases itemAt pts i with e | p
  · rfl
  rcases itemAt normals w.1 with e | ns
  · rfl
  simp only [ok_bind, itemAt_map]
  rcases itemAt ns w.2.2 with e | n
  · rfl
  rcases itemAt areas w.1 with e | as
  · rfl
  simp only [Except.map, ok_bind]
  rcases itemAt as w.2.2 with e | a
  · rfl
  rcases itemAt bounds w.1 with e | b1
  · rfl
  rcases itemAt bounds w.2.1 with e | b2
  · rfl
  rfl

theorem spun_line (f : Interface) : (f.spun c s).line = Spec.spun c s f.line := spun_sub _ _

theorem spun_distances (h : c ^ 2 + s ^ 2 = 1) (opt : NodalDistance) (f : Interface) :
    nodalDistances opt (f.spun c s) = nodalDistances opt f := by
  cases opt with
  | line =>
    unfold nodalDistances
    simp only [spun_line]
    have e : lineMeetsPlane (f.spun c s).c1 (Spec.spun c s f.line) (f.spun c s).point (f.spun c s).normal =
        Spec.spun c s (lineMeetsPlane f.c1 f.line f.point f.normal) := spun_meets h _ _ _ _
    rw [e]
    show ((if f.bound1 then _ else norm3 ((Spec.spun c s f.c1).sub _)),
      (if f.bound2 then _ else norm3 ((Spec.spun c s f.c2).sub _))) = _
    rw [spun_sub, spun_sub, spun_norm h, spun_norm h]
  | orthogonal =>
    unfold nodalDistances pointToPlane
    show ((if f.bound1 then _ else |dot ((Spec.spun c s f.c1).sub (Spec.spun c s f.point)) (Spec.spun c s f.normal)|),
      (if f.bound2 then _ else |dot ((Spec.spun c s f.c2).sub (Spec.spun c s f.point)) (Spec.spun c s f.normal)|)) = _
    rw [spun_sub, spun_sub, spun_dot h, spun_dot h]

theorem spun_connRowsOf (h : c ^ 2 + s ^ 2 = 1) (opt : NodalDistance) (pts nodes : List (P3 ℝ))
    (fs : List (List (List ℕ))) (normals : List (List (P3 ℝ))) (areas : List (List ℝ)) (bounds : List Bool) :
    (∀ e, connRowsOf opt pts nodes fs normals areas bounds = .error e →
      connRowsOf opt (pts.map (spun c s)) (nodes.map (spun c s)) fs (normals.map (List.map (spun c s))) areas bounds =
        .error e) ∧
    ∀ rows, connRowsOf opt pts nodes fs normals areas bounds = .ok rows → ∃ rows',
      connRowsOf opt (pts.map (spun c s)) (nodes.map (spun c s)) fs (normals.map (List.map (spun c s))) areas bounds =
        .ok rows' ∧ List.Forall₂ RowSpun rows rows' := by
  unfold connRowsOf
  simp only
  rw [mapM_map_ok (g := Interface.spun c s) (f := interfaceOf pts nodes fs normals areas bounds)
    fun w _ => spun_interfaceOf pts nodes fs normals areas bounds w]
  cases List.mapM (interfaceOf pts nodes fs normals areas bounds) (writtenConnections (connectionsOf fs)) with
  | error e => exact ⟨fun e' h => h, fun rows h => by cases h⟩
  | ok is =>
    simp only [Except.map, ok_bind]
    by_cases hw : writtenConnections (connectionsOf fs) = []
    · simp only [if_pos hw]
      exact ⟨fun e h => h, fun rows h => by cases h⟩
    · simp only [if_neg hw]
      refine ⟨fun e h => (nomatch h), fun rows hr => ⟨_, rfl, ?_⟩⟩
      cases hr
      clear hw
      generalize writtenConnections (connectionsOf fs) = ws
      induction ws generalizing is with
      | nil => exact .nil
      | cons w ws ih =>
        cases is with
        | nil => exact .nil
        | cons f is =>
          refine .cons ⟨rfl, rfl, ?_, ?_, ?_, rfl, ?_⟩ (ih is)
          · show isot (f.spun c s).line = 3 ↔ isot f.line = 3
            rw [spun_line, spun_vertical h]
          · show (nodalDistances opt (f.spun c s)).1 = _
            rw [spun_distances h]
          · show (nodalDistances opt (f.spun c s)).2 = _
            rw [spun_distances h]
          · show angle (f.spun c s).line = _
            rw [spun_line, spun_angle h]

theorem spun_qualities (h : c ^ 2 + s ^ 2 = 1) (pts nodes : List (P3 ℝ)) (fs : List (List (List ℕ))) :
    qualities (pts.map (spun c s)) (nodes.map (spun c s)) fs = qualities pts nodes fs := by
  unfold qualities
  rw [spun_faceNormals h]
  cases faceNormals pts fs with
  | error e => rfl
  | ok normals =>
    simp only [Except.map, ok_bind]
    congr 1
    refine congrFun (congrArg _ (funext fun w => ?_)) _
    simp only [itemAt_map]
    rcases itemAt nodes w.1 with e | c1
    · rfl
    rcases itemAt nodes w.2.1 with e | c2
    · rfl
    simp only [Except.map, ok_bind]
    rcases itemAt normals w.1 with e | ns
    · rfl
    simp only [ok_bind, itemAt_map]
    rcases itemAt ns w.2.2 with e | n
    · rfl
    simp only [Except.map, ok_bind]
    rw [spun_sub, spun_norm h, spun_scale, spun_dot h]

theorem spun_dist2 (h : c ^ 2 + s ^ 2 = 1) (p q : P3 ℝ) : dist2 (spun c s p) (spun c s q) = dist2 p q := by
  unfold dist2 spun
  simp only
  linear_combination ((q.x - p.x) ^ 2 + (q.y - p.y) ^ 2) * h

end Verif.Mesh
